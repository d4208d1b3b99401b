{"id": "C01", "title": "A tract's bounding box is grown minimally to a whole number of patches", "statement": "For positive patch inner dimensions, the tract bounding box built from a requested minimum pixel box has, in each axis, a size that is exactly numPatches*patchInnerDimension, contains the requested box, uses the smallest possible number of patches, and is centred on the requested box to within one pixel; TractInfo.getBBox() starts at (0,0) with that size. A zero inner dimension raises ZeroDivisionError instead of returning a tract.", "quantifier": "every requested minimum box and every positive patch inner dimension", "why_tests_cant": "There are unboundedly many boxes and patch sizes; tests use a handful of sky maps with default dimensions.", "anchors": ["python/lsst/skymap/tractBuilder.py: BaseTractBuilder.setupPatches", "python/lsst/skymap/tractInfo.py: TractInfo.__init__, _finalOrientation, getBBox"]}
{"id": "C02", "title": "Patch inner regions exactly tile the tract", "statement": "Every pixel of TractInfo.getBBox() lies in the inner bbox of exactly one patch of the tract, every patch's inner bbox lies inside the tract's bbox, and all inner bboxes have dimensions getPatchInnerDimensions().", "quantifier": "every tract size, every patch size, every pixel", "why_tests_cant": "Tests look at a few corner patches of a few tracts; exactness of a tiling is a statement about every pixel of every tract.", "anchors": ["python/lsst/skymap/tractBuilder.py: LegacyTractBuilder.getPatchInfo, CellTractBuilder.getPatchInfo", "python/lsst/skymap/tractInfo.py: TractInfo"]}
{"id": "C03", "title": "Legacy patch outer region: border on every side except tract edges, never off the tract", "statement": "With the legacy builder and a non-negative border, a patch's outer bbox is exactly the set of tract pixels within patchBorder (in x and in y) of its inner bbox; it contains the inner bbox and never leaves the tract. A negative border makes getPatchInfo raise instead of returning a patch whose outer box does not contain its inner box.", "quantifier": "every tract, every border, every patch index, every pixel", "why_tests_cant": "Tests compare the edges of five-by-five sampled patches for a few borders.", "anchors": ["python/lsst/skymap/tractBuilder.py: LegacyTractBuilder.getPatchInfo", "python/lsst/skymap/patchInfo.py: PatchInfo.__init__"]}
{"id": "C04", "title": "Cell patch outer region is the full border, unclipped", "statement": "With the cells builder a patch's outer bbox is exactly the set of pixels within numCellsInPatchBorder*cellInnerDimension+cellBorder of its inner bbox, even where that leaves the tract.", "quantifier": "every tract, every cell configuration with non-negative border, every patch index, every pixel", "why_tests_cant": "Sampled configurations only.", "anchors": ["python/lsst/skymap/tractBuilder.py: CellTractBuilder.__init__, CellTractBuilder.getPatchInfo"]}
{"id": "C05", "title": "Sequential patch index and (x,y) patch index are inverse bijections", "statement": "getPatchIndexPair and getSequentialPatchIndexFromPair are mutually inverse between {0..nx*ny-1} and {0..nx-1}x{0..ny-1}; in particular distinct patches of a tract never share a sequential index, and PatchInfo.getSequentialIndex() agrees with TractInfo.getSequentialPatchIndex(patch).", "quantifier": "every number of patches (nx, ny) and every index", "why_tests_cant": "Round-trips are tested on one index of one tract.", "anchors": ["python/lsst/skymap/tractBuilder.py: getSequentialPatchIndexFromPair, getPatchIndexPair, getSequentialPatchIndex"]}
{"id": "C06", "title": "Patch lookup accepts exactly the valid indices", "statement": "getPatchInfo with an Index2D, a pair or a sequential integer returns the same patch for the same index; it succeeds exactly when the index is in range and otherwise raises IndexError (including all negative integers and integers >= nx*ny); a sequence of other than two numbers is an error; the internal-consistency RuntimeErrors can never be raised when patchBorder >= 0.", "quantifier": "every index argument (any integer, any sequence), every tract", "why_tests_cant": "Range errors are tested for one or two literal values only.", "anchors": ["python/lsst/skymap/tractBuilder.py: LegacyTractBuilder.getPatchInfo, CellTractBuilder.getPatchInfo, getPatchIndexPair"]}
{"id": "C07", "title": "Iterating a tract visits every patch once, in sequential-index order", "statement": "list(tract) has len(tract) = nx*ny elements, its k-th element is the patch with sequential index k, and tract[k] is that element.", "quantifier": "every tract", "why_tests_cant": "Tests iterate a few tracts.", "anchors": ["python/lsst/skymap/tractInfo.py: TractInfo.__iter__, __len__, __getitem__"]}
{"id": "C08", "title": "findPatch returns the patch whose inner bbox contains the coordinate", "statement": "If the coordinate's pixel is in the tract bbox, findPatch(coord) returns the (unique) patch whose inner bbox contains that pixel; otherwise, or if the WCS cannot place the coordinate, it raises LookupError and nothing else. This holds although the patch index is computed with a rounded floating-point division.", "quantifier": "every tract, every coordinate, every WCS, every rounding of the division with relative error at most 2^-53 (pixel indices below 2^53)", "why_tests_cant": "Tests probe points near a few boundaries; an off-by-one from floating-point division would appear only at particular (pixel, size) pairs.", "anchors": ["python/lsst/skymap/tractInfo.py: TractInfo.findPatch"]}
{"id": "C09", "title": "findPatchList misses no patch that could hold a listed coordinate", "statement": "Every patch whose outer bbox contains a pixel of the bounding rectangle of the given coordinates (in particular the pixel of any given coordinate, and every pixel of a region spanned by them in x and y) is in findPatchList(coordList).", "quantifier": "every tract (legacy or cells), every list of coordinates, every WCS", "why_tests_cant": "Tests try single patches and their direct neighbours.", "anchors": ["python/lsst/skymap/tractInfo.py: TractInfo.findPatchList"]}
{"id": "C10", "title": "findPatchList lists no duplicate and no far-away patch", "statement": "findPatchList never raises, returns each patch at most once, returns the empty tuple exactly when the coordinates' bounding rectangle grown by patchBorder misses the tract, and every returned patch has its inner bbox within patchBorder of that rectangle (the rectangle is the smallest integer rectangle holding all pixel positions; its upper end may exceed the last pixel by one).", "quantifier": "every tract, every list of coordinates, every WCS", "why_tests_cant": "Precision and freedom from exceptions over all coordinate lists cannot be sampled.", "anchors": ["python/lsst/skymap/tractInfo.py: TractInfo.findPatchList"]}
{"id": "C11", "title": "contains, findPatch and findPatchList agree", "statement": "For a coordinate with a finite pixel position, tract.contains(coord) is True exactly when tract.findPatch(coord) returns a patch, and then that patch is in tract.findPatchList([coord]); contains never raises for projection failures or non-finite pixels.", "quantifier": "every tract of fewer than 2^53 pixels along each axis, every coordinate, every WCS", "why_tests_cant": "The two code paths are tested separately on a few coordinates.", "anchors": ["python/lsst/skymap/tractInfo.py: TractInfo.contains, findPatch, findPatchList"]}
{"id": "C12", "title": "The tract covers its vertices plus overlap, in its final pixel frame", "statement": "After construction the shifted WCS and bbox still describe the same sky: tract.getWcs() differs from the WCS passed in only by the pixel-origin shift, and each point used to size the tract (each vertex when tractOverlap is 0; otherwise the 24 points at tractOverlap/2 around each vertex; for explicit tracts the 4 points at radius+overlap from the centre) satisfies tract.contains(point).", "quantifier": "every vertex list, every overlap, every WCS", "why_tests_cant": "Needs every vertex list and WCS; tests use the built-in sky maps.", "anchors": ["python/lsst/skymap/tractInfo.py: TractInfo._minimumBoundingBox, _finalOrientation, ExplicitTractInfo._minimumBoundingBox", "python/lsst/skymap/tractBuilder.py: setupPatches"]}
{"id": "C13", "title": "Vertices of explicit tracts lie in the tract", "statement": "For every explicitly placed tract with a non-empty bbox and a WCS for which skyToPixel inverts pixelToSky, all four vertices returned by getVertexList() satisfy tract.contains(vertex).", "quantifier": "every explicit tract, every invertible WCS", "why_tests_cant": "The 0.001 pixel shrink is tested only on the built-in maps.", "anchors": ["python/lsst/skymap/tractInfo.py: ExplicitTractInfo.__init__"]}
{"id": "C14", "title": "Cells exactly tile the patch and share one grid per tract", "statement": "The inner bboxes of a patch's cells exactly tile the patch's inner bbox grown by numCellsInPatchBorder cells; the central cells exactly tile the patch's inner bbox; the inner bboxes of any two cells of any two patches of the same tract are either identical or disjoint, and border cells of a patch coincide with interior cells of its neighbour.", "quantifier": "every cell configuration, every pair of patches and cells, every pixel", "why_tests_cant": "Cross-patch grid alignment is quantified over all pairs of patches.", "anchors": ["python/lsst/skymap/patchInfo.py: PatchInfo.getCellInfo", "python/lsst/skymap/tractBuilder.py: CellTractBuilder"]}
{"id": "C15", "title": "A cell patch's outer bbox is exactly the hull of its cells' outer bboxes", "statement": "With square cells (as CellTractBuilderConfig.validate requires), every cell's outer bbox is inside its patch's outer bbox and the patch's outer bbox is exactly the union of the cells' outer bboxes. For non-square cells, which the constructor does not reject, this fails.", "quantifier": "every cell configuration, every patch, every cell, every pixel", "why_tests_cant": "Tests use the default square configuration.", "anchors": ["python/lsst/skymap/tractBuilder.py: CellTractBuilder.__init__, CellTractBuilderConfig.validate", "python/lsst/skymap/patchInfo.py: getCellInfo"]}
{"id": "C16", "title": "Cell lookup and sequential cell index", "statement": "getCellInfo accepts an Index2D, a pair or a sequential integer, succeeds exactly when in range and raises IndexError otherwise; getCellIndexPair and getSequentialCellIndexFromPair are inverse; iteration yields len(patch) cells in sequential order; patches built without cells raise IndexError for every index and iterate over nothing.", "quantifier": "every patch with or without cells, every index", "why_tests_cant": "Unbounded index space.", "anchors": ["python/lsst/skymap/patchInfo.py: getCellInfo, getCellIndexPair, getSequentialCellIndexFromPair, __iter__, __len__"]}
{"id": "C17", "title": "Patch and cell equality", "statement": "PatchInfo == and CellInfo == are equivalence relations, != is their negation, and two equal patches produced by the tract builders of two sky maps have identical cell geometry: equal cells at every index.", "quantifier": "every pair or triple of patches / cells, every pair of builder configurations", "why_tests_cant": "PatchInfo.__eq__ does not compare all fields, so that it still determines the geometry is a statement about all configurations.", "anchors": ["python/lsst/skymap/patchInfo.py: PatchInfo.__eq__, __ne__", "python/lsst/skymap/cellInfo.py: CellInfo.__eq__, __ne__"]}
{"id": "C18", "title": "Caching sky maps behave like an immutable sequence of tracts", "statement": "In every history of accesses, skyMap[i] for 0<=i<len(skyMap) returns the tract generated for i (with getId() == i) and, once returned, the identical object ever after; the tract is generated successfully at most once; every negative index and every index >= len raises IndexError; a failed generation leaves the cache unchanged so that a retry is possible; iteration yields tracts 0..len-1.", "quantifier": "every sequence of accesses, including failing ones", "why_tests_cant": "Histories are unbounded, and the guard in __getitem__ (index > numTracts) is off by one and only harmless because of the list behind it.", "anchors": ["python/lsst/skymap/cachingSkyMap.py: CachingSkyMap.__getitem__, __iter__, __len__"]}
{"id": "C19", "title": "Tract-level data never depends on access history", "statement": "For every history, the id, centre, vertices, bbox, WCS, overlap and number of patches of skyMap[i] are those of a freshly built sky map with the same configuration.", "quantifier": "every history of accesses and lookups", "why_tests_cant": "All interleavings of accesses.", "anchors": ["python/lsst/skymap/cachingSkyMap.py: __getitem__", "python/lsst/skymap/tractInfo.py: TractInfo.__init__", "python/lsst/skymap/tractBuilder.py: setupPatches"]}
{"id": "C20", "title": "Patch lookups on a tract never depend on which other tracts were accessed", "statement": "For every history, tract.getPatchInfo / findPatch / findPatchList / sequential indices on skyMap[i] give the same results as on a freshly built sky map in which only tract i has been accessed. (All tracts of a sky map share one tract builder object whose patch count and bounding box are overwritten by every tract construction, so this is false for sky maps whose tracts differ in size, e.g. DiscreteSkyMap with unequal radii; it is true when all tracts have the same number of patches.)", "quantifier": "every history of accesses and lookups, every pair of tracts", "why_tests_cant": "Only particular histories on non-uniform sky maps expose it; every sky map in the tests is uniform.", "anchors": ["python/lsst/skymap/baseSkyMap.py: BaseSkyMap.__init__ (_tractBuilder)", "python/lsst/skymap/tractInfo.py: TractInfo.getPatchInfo", "python/lsst/skymap/tractBuilder.py: setupPatches, getPatchInfo"]}
{"id": "C21", "title": "Discrete sky map tracts correspond one-to-one to the configured positions", "statement": "A DiscreteSkyMap whose config passes validate() has len(radiusList) tracts; tract i is centred on (raList[i], decList[i]) with half-size radiusList[i]+tractOverlap; validate() raises ValueError exactly when the lists have different lengths.", "quantifier": "every triple of lists, every index", "why_tests_cant": "Lists of any length.", "anchors": ["python/lsst/skymap/discreteSkyMap.py: DiscreteSkyMapConfig.validate, DiscreteSkyMap.__init__, generateTract"]}
{"id": "C22", "title": "Default findTract returns the nearest tract, lowest index on ties", "statement": "BaseSkyMap.findTract(coord) returns a tract whose centre separation from coord is minimal over all tracts, and among equally near tracts the one with the lowest index; with no tracts it raises IndexError.", "quantifier": "every list of tracts and every coordinate", "why_tests_cant": "Ties and arbitrary tract lists.", "anchors": ["python/lsst/skymap/baseSkyMap.py: BaseSkyMap.findTract"]}
{"id": "C23", "title": "findTractIdArray is element-wise findTract", "statement": "BaseSkyMap.findTractIdArray(ra, dec) has one entry per (ra, dec) pair and entry k equals findTract(SpherePoint(ra[k], dec[k])).getId().", "quantifier": "every pair of arrays", "why_tests_cant": "Arbitrary arrays.", "anchors": ["python/lsst/skymap/baseSkyMap.py: BaseSkyMap.findTractIdArray"]}
{"id": "C24", "title": "Default findTractPatchList is exact", "statement": "BaseSkyMap.findTractPatchList(coordList) contains exactly the tracts whose findPatchList(coordList) is non-empty, once each, in tract order, paired with that patch list. This holds on sky maps whose tracts all have the same number of patches, on sky maps that build all tracts at once (Dodeca, Equat), and for the first call on any caching sky map; on other caching sky maps a second call can raise IndexError.", "quantifier": "every such sky map, every coordinate list, every history of accesses (no access before, for caching sky maps with tracts of different sizes)", "why_tests_cant": "Arbitrary sky maps and lists.", "anchors": ["python/lsst/skymap/baseSkyMap.py: BaseSkyMap.findTractPatchList"]}
{"id": "C25", "title": "findClosestTractPatchList is exact", "statement": "findClosestTractPatchList(coordList) contains, without duplicates and in first-occurrence order, exactly the pairs (findTract(c), that tract's findPatchList(coordList)) for c in coordList whose patch list is non-empty.", "quantifier": "every sky map with a stable builder state and every coordinate list", "why_tests_cant": "Arbitrary lists; tests use single coordinates.", "anchors": ["python/lsst/skymap/baseSkyMap.py: BaseSkyMap.findClosestTractPatchList"]}
{"id": "C26", "title": "Rings tract numbering (version 1) is a bijection", "statement": "For version 1, getRingIndices maps {0..len-1} one-to-one onto south cap (-1,0), (ring r, tract t) with 0<=t<n_r, and north cap (numRings,0), in increasing order of ring and then tract number; out-of-range indices raise IndexError.", "quantifier": "every number of rings, every list of tracts per ring, every index", "why_tests_cant": "Loops over arbitrary ring sizes.", "anchors": ["python/lsst/skymap/ringsSkyMap.py: RingsSkyMap.getRingIndices"]}
{"id": "C27", "title": "Rings inner regions partition the sky and agree with findTract", "statement": "For version 1, every sky position lies in the inner RA/Dec range (getRaDecRange, taken half-open and modulo 2 pi) of exactly one tract, and that tract is the one findTract returns (exact arithmetic).", "quantifier": "every sky position, every number of rings, every raStart", "why_tests_cant": "Continuous domain; tests sample pixel grids.", "anchors": ["python/lsst/skymap/ringsSkyMap.py: getRaDecRange, findTract, _decToRingNum, _raToTractNum, getRingIndices"]}
{"id": "C28", "title": "Rings: looking up a tract's own centre finds that tract", "statement": "For version 1, findTract(skyMap[i].getCtrCoord()) is tract i, for every tract (DM-14809), and distinct tracts have distinct centres: in exact arithmetic, and with every rounding within the IEEE error bound that halves pi exactly, if abs(raStart) <= 360 and numRings <= 2^31.", "quantifier": "every number of rings, every raStart, every tract index, every rounding function within the IEEE error bound", "why_tests_cant": "Checked by tests on two configurations.", "anchors": ["python/lsst/skymap/ringsSkyMap.py: generateTract, findTract, getRingIndices"]}
{"id": "C29", "title": "Rings version 0 keeps its documented numbering quirk and nothing else", "statement": "For version 0 and numRings>=2, exactly one tract is duplicated (index n_0+1 has the same centre as index 1), exactly one is missing (first tract of the last ring), every other (ring, tract) is numbered exactly once, and findTract returns a tract with the right centre for every position except those of the missing tract, for which it returns the north cap; with a single ring the numbering is that of version 1. With the arithmetic of doubles (at most 2^31 rings, |raStart| <= 360 degrees): every index other than that of the first tract of a later ring has exactly the centre and inner region of version 1, that of the first tract of ring k+1 has the first tract of ring k again (same declination, right ascension equal up to rounding), and findTract maps to the indices accordingly for every position.", "quantifier": "every number of rings, every index and position", "why_tests_cant": "Tests check one configuration.", "anchors": ["python/lsst/skymap/ringsSkyMap.py: getRingIndices, findTract"]}
{"id": "C30", "title": "Rings vectorised findTractIdArray agrees with scalar findTract", "statement": "For both versions and every coordinate array, RingsSkyMap.findTractIdArray(ra, dec)[k] == findTract(SpherePoint(ra[k], dec[k])).getId(), for every rounding of the intermediate results within the IEEE error bound when ra is in [0, 2*pi), and for every ra when the arithmetic is exact; arrays of different lengths raise IndexError; scalar inputs are accepted in radians, but with degrees=True a scalar dec raises TypeError and a scalar ra with an array dec IndexError.", "quantifier": "every array, every sky position, every numRings up to 2^31, every rounding function within the IEEE error bound", "why_tests_cant": "Tests draw 1000 random points for one configuration.", "anchors": ["python/lsst/skymap/ringsSkyMap.py: findTractIdArray, findTract"]}
{"id": "C31", "title": "Rings findAllTracts is sound and includes the primary tract", "statement": "Every tract returned by findAllTracts(coord) contains coord; if findTract(coord) contains coord it is returned; both polar caps are returned whenever they contain coord; for version 1 no tract is returned twice. (It is not complete for every overlap: only adjacent rings and tracts are examined.)", "quantifier": "every sky position, configuration and overlap", "why_tests_cant": "Continuous domain.", "anchors": ["python/lsst/skymap/ringsSkyMap.py: findAllTracts"]}
{"id": "C32", "title": "Rings tracts are wide enough", "statement": "The number of tracts in each ring is such that the RA width of a tract's inner region, at every declination of the ring, is at most the ring size, for two rings or more (false for a single ring, which gets three tracts 120 degrees wide and 90 degrees high); every ring has at least three tracts; and numTracts is the sum over rings plus two (exact arithmetic).", "quantifier": "every number of rings, every ring, every declination in the ring", "why_tests_cant": "Needs every numRings.", "anchors": ["python/lsst/skymap/ringsSkyMap.py: RingsSkyMap.__init__"]}
{"id": "C33", "title": "Rings findTractPatchList is a sound, duplicate-free restriction of the default", "statement": "Every entry of RingsSkyMap.findTractPatchList(coordList) is a tract containing one of the coordinates together with its non-empty findPatchList; no entry occurs twice; with a stable builder state it is exactly the set of those pairs for tracts in findAllTracts of some coordinate, hence a subset of BaseSkyMap's answer.", "quantifier": "every coordinate list and configuration", "why_tests_cant": "Arbitrary lists.", "anchors": ["python/lsst/skymap/ringsSkyMap.py: findTractPatchList", "python/lsst/skymap/baseSkyMap.py: findTractPatchList"]}
{"id": "C34", "title": "Rings findTract is total under floating-point rounding", "statement": "For every coordinate with |dec|<=pi/2 and every rounding of the intermediate results with relative error at most 2^-53, findTract computes a ring number in -1..numRings and a tract number in 0..n_r-1, so neither the assertion nor an index error can occur.", "quantifier": "every coordinate, every numRings up to 2^31 (the largest that its SHA1 can encode), every rounding function within the IEEE error bound", "why_tests_cant": "Boundary rounding happens at isolated inputs.", "anchors": ["python/lsst/skymap/ringsSkyMap.py: _decToRingNum, _raToTractNum, findTract"]}
{"id": "C35", "title": "Equatorial tracts tile the RA circle and findTract respects the tiling", "statement": "EquatSkyMap has numTracts tracts; the RA intervals of their inner regions partition the circle; and findTract(coord) is the tract whose RA interval contains coord (lower index on shared boundaries), for every declination except the poles (exact arithmetic).", "quantifier": "every number of tracts, every dec range inside (-90,90), every coordinate", "why_tests_cant": "Continuous domain.", "anchors": ["python/lsst/skymap/equatSkyMap.py: EquatSkyMap.__init__", "python/lsst/skymap/baseSkyMap.py: findTract"]}
{"id": "C36", "title": "Dodeca findTract returns the tract whose inner region contains the coordinate", "statement": "For both orientations and every direction, the face chosen by DodecaSkyMap.findTract is nearest in angle (same answer as the default findTract) and the direction lies in the convex cone spanned by that tract's five vertices (exact arithmetic).", "quantifier": "every direction in space", "why_tests_cant": "Continuous domain; tests probe near boundaries.", "anchors": ["python/lsst/skymap/dodecaSkyMap.py: findTract", "python/lsst/skymap/detail/dodecahedron.py: getFaceInd, getVertices"]}
{"id": "C37", "title": "Dodecahedron construction is a rotated regular dodecahedron with the promised pole", "statement": "Dodecahedron(withFacesOnPoles) is the regular dodecahedron up to a proper rotation: 12 distinct unit face vectors and 20 distinct unit vertex vectors, the faces numbered by decreasing latitude; a face (vertex) on each pole, and a neighbouring face (vertex) on the meridian of RA 0 (180 degrees); getVertices returns the five vertices nearest to the face, in cyclic order. The coordinate transform is a proper rotation that puts the first vector on +z and the second in the half-plane y=0, x>0, for every pair of non-parallel vectors; with vec1NegativeX, x<0 (this last is false of the code in general: true exactly if the plane of the vectors contains the x axis, as for the vectors that Dodecahedron uses).", "quantifier": "every pair of vectors (transform); both orientations; all faces; every iteration order of the Python sets used", "why_tests_cant": "The transform is used with arbitrary vectors; the order of set iteration is not fixed by the language.", "anchors": ["python/lsst/skymap/detail/dodecahedron.py: computeRotationMatrix, _computeCoordTransform, Dodecahedron.__init__, getVertices"]}
{"id": "C38", "title": "Sky map equality means same class and same configuration", "statement": "Two sky maps compare equal (and then have equal hash()) if they have the same class, tract builder and configuration values; conversely the hashed message determines class, tract builder kind and every configuration value, so unequal configurations compare equal only on a SHA-1 collision.", "quantifier": "every pair of sky maps of any class and configuration", "why_tests_cant": "Injectivity of an encoding over all configurations.", "anchors": ["python/lsst/skymap/baseSkyMap.py: getSha1, __eq__, __hash__, __ne__", "python/lsst/skymap/tractBuilder.py: getPackedConfig", "python/lsst/skymap/*SkyMap.py: updateSha1"]}
{"id": "C39", "title": "Equal sky maps have the same tracts", "statement": "If two sky maps compare equal then their tracts are the same. (False for RingsSkyMap: the version, which changes tract numbering, is not part of the hash.)", "quantifier": "every pair of sky maps", "why_tests_cant": "No test compares a version 0 with a version 1 map.", "anchors": ["python/lsst/skymap/ringsSkyMap.py: updateSha1, getRingIndices", "python/lsst/skymap/baseSkyMap.py: getSha1"]}
{"id": "C40", "title": "Pickling preserves a sky map at every point of its life", "statement": "For every history, unpickling a pickled sky map gives a sky map of the same class, configuration and version that compares equal to the original and yields the same tracts; states written with version >= (2,0) are refused by Dodeca and Equat with RuntimeError.", "quantifier": "every history before pickling; every version pair", "why_tests_cant": "Histories and version pairs are unbounded.", "anchors": ["python/lsst/skymap/cachingSkyMap.py: __reduce__", "python/lsst/skymap/dodecaSkyMap.py: __getstate__, __setstate__", "python/lsst/skymap/equatSkyMap.py: __getstate__, __setstate__"]}
{"id": "C41", "title": "The hash of a sky map never changes", "statement": "In every history of getSha1 calls, tract accesses and attempts to modify the configuration, getSha1 (and therefore == and hash()) always returns the value determined by the configuration at construction; the configuration is frozen.", "quantifier": "every history", "why_tests_cant": "Cached value versus mutable configuration needs every interleaving.", "anchors": ["python/lsst/skymap/baseSkyMap.py: __init__ (freeze), getSha1"]}
{"id": "C42", "title": "Packed data IDs unpack to themselves", "statement": "SkyMapDimensionPacker.unpack(pack(dataId)) == dataId for every data ID that pack accepts. (True without bands and for band mappings that number bands by position, as the default does; false for other mappings, since unpack decodes the band by position instead of by value.)", "quantifier": "every packer configuration and every accepted data ID", "why_tests_cant": "Only order-respecting mappings are tested.", "anchors": ["python/lsst/skymap/packers.py: SkyMapDimensionPacker._pack, unpack"]}
{"id": "C43", "title": "Distinct data IDs get distinct packed integers", "statement": "For non-negative tract and patch and a band mapping with distinct non-negative values, pack is injective on the data IDs it accepts.", "quantifier": "every packer configuration, every pair of data IDs", "why_tests_cant": "Pairs over an unbounded domain.", "anchors": ["python/lsst/skymap/packers.py: SkyMapDimensionPacker._pack"]}
{"id": "C44", "title": "Packed integers fit in maxBits", "statement": "0 <= pack(dataId) < 2**maxBits for every accepted data ID with non-negative fields, and maxBits is the smallest such number of bits for the declared ranges.", "quantifier": "every packer configuration, every accepted data ID", "why_tests_cant": "Unbounded configurations.", "anchors": ["python/lsst/skymap/packers.py: SkyMapDimensionPacker.maxBits, _pack"]}
{"id": "C45", "title": "pack rejects exactly the out-of-range data IDs", "statement": "pack raises ValueError exactly when patch >= n_patches, tract >= n_tracts, or (with bands) the band is unknown or its number is >= n_bands; a packer is only constructed for dimensions {skymap,tract,patch} or {skymap,tract,patch,band}.", "quantifier": "every packer configuration and data ID", "why_tests_cant": "Unbounded domain.", "anchors": ["python/lsst/skymap/packers.py: __init__, _pack"]}
{"id": "C46", "title": "Every packed integer in range is produced by exactly the data ID it unpacks to", "statement": "For a positional band mapping with n_bands <= len(bands) (or no bands), pack(unpack(k)) == k for every 0 <= k < n_tracts*n_patches*max(n_bands,1).", "quantifier": "every packer configuration and every integer in range", "why_tests_cant": "Unbounded domain.", "anchors": ["python/lsst/skymap/packers.py: unpack, _pack"]}
{"id": "C47", "title": "Registration is atomic", "statement": "If register(name, butler) raises, at whichever insertion it fails, no skymap, tract, patch record and no skyMap dataset has been added; if it returns after inserting, all of them have been added.", "quantifier": "every sky map, every prior registry content, every failure point", "why_tests_cant": "Every crash point inside the transaction.", "anchors": ["python/lsst/skymap/baseSkyMap.py: BaseSkyMap.register"]}
{"id": "C48", "title": "Registration is idempotent and never overwrites", "statement": "Registering the same sky map under the same name again changes nothing; registering a different sky map under an existing name, or the same hash under another name, raises ConflictingDefinitionError and changes no record; existing records are never modified or removed.", "quantifier": "every sequence of registrations", "why_tests_cant": "All histories of registrations.", "anchors": ["python/lsst/skymap/baseSkyMap.py: BaseSkyMap.register"]}
{"id": "C49", "title": "Registered records enumerate all tracts and patches exactly once", "statement": "After a successful first registration (all tracts having the same number of patches) there is exactly one tract record per tract and, per tract, exactly one patch record for each patch, with patch = sequential index, cell_x, cell_y = patch index.", "quantifier": "every sky map with uniform tracts", "why_tests_cant": "Arbitrary numbers of tracts and patches.", "anchors": ["python/lsst/skymap/baseSkyMap.py: BaseSkyMap.register"]}
{"id": "C50", "title": "Every registered patch can be packed", "statement": "Every (tract, patch) registered by register fits the tract_max, patch_nx_max and patch_ny_max registered with it: the packer built from the skymap record packs it without error and, without bands, unpacks it to itself; distinct registered patches of a sky map get distinct IDs - also for sky maps with tracts of different sizes whenever registration succeeds.", "quantifier": "every sky map for which registration succeeds, every registered patch", "why_tests_cant": "Links two modules over all sky maps.", "anchors": ["python/lsst/skymap/baseSkyMap.py: BaseSkyMap.register", "python/lsst/skymap/packers.py: SkyMapDimensionPacker"]}
{"id": "C51", "title": "Backward-compatible config accessors are lenses on the legacy builder", "statement": "Setting patchInnerDimensions / patchBorder on a sky map config and reading it back gives the value set, changes only the legacy builder's field, and never changes the selected builder or the cells configuration; the two accessors are independent.", "quantifier": "every configuration and every sequence of assignments", "why_tests_cant": "Sequences of assignments.", "anchors": ["python/lsst/skymap/baseSkyMap.py: BaseSkyMapConfig.getPatchInnerDimensions, setPatchInnerDimensions, getPatchBorder, setPatchBorder"]}
{"id": "C52", "title": "Adjacent patches and cells share sky-polygon corners", "statement": "The inner sky polygon of a patch is the image under the tract WCS of the four corners of its inner bbox in pixel-edge coordinates; polygons of horizontally or vertically adjacent patches share the two corners of their common edge exactly, and the polygon returned without an explicit WCS is the one for the tract WCS.", "quantifier": "every tract, every pair of adjacent patches, every WCS", "why_tests_cant": "Arbitrary tracts and WCSs.", "anchors": ["python/lsst/skymap/detail/utils.py: makeSkyPolygonFromBBox", "python/lsst/skymap/patchInfo.py: getInnerSkyPolygon, getOuterSkyPolygon"]}
{"id": "C53", "title": "Healpix coordinate conversions are mutually inverse", "statement": "angToCoord and coordToAng are inverse to each other on 0<=theta<=pi, 0<=phi<2pi, and a HealpixSkyMap has 12*4**log2NSide tracts (exact arithmetic).", "quantifier": "every angle pair, every log2NSide", "why_tests_cant": "Continuous domain.", "anchors": ["python/lsst/skymap/healpixSkyMap.py: angToCoord, coordToAng, HealpixSkyMap.__init__"]}
{"id": "C54", "title": "Pole handling of coordFromVec", "statement": "coordFromVec returns latitude +90 deg (vec z > 0) or -90 deg (otherwise) with longitude defRA when both x and y are below the smallest normal double in magnitude, raises RuntimeError there when defRA is None, and otherwise ignores defRA.", "quantifier": "every vector and defRA", "why_tests_cant": "Every vector near the pole.", "anchors": ["python/lsst/skymap/detail/utils.py: coordFromVec"]}
{"id": "C55", "title": "A Rings tract's inner sky region contains the positions the tract is found for", "statement": "For a version-1 RingsSkyMap the inner sky region (a closed longitude/latitude box) of the tract returned by findTract(p) contains p, whatever calls came before, and the regions of two different tracts share only positions on an edge of both (exact arithmetic). With floating point of any IEEE-like accuracy, numRings <= 2**31 and |raStart| <= 360, findTract succeeds and the region of its tract contains a position within 2**-44 rad of p.", "quantifier": "every configuration, every position, every history of previous calls, every rounding", "why_tests_cant": "Continuous domain, arbitrary ring counts, rounding at the edges.", "anchors": ["python/lsst/skymap/ringsSkyMap.py: RingsSkyMap.getRaDecRange, generateTract, findTract", "python/lsst/skymap/tractInfo.py: TractInfo.inner_sky_region"]}
{"id": "C56", "title": "A sky map's WCS puts north up, east left, turned by the configured rotation, and is invertible", "statement": "A WcsFactory refuses a projection code that is not three characters long with RuntimeError and accepts any other. The WCS it makes for a zenithal projection (TAN, STG) puts the position at distance r and bearing b from crVal at the distance radius(r)/pixelScale from crPixPos, turned by the rotation, with east towards -x (or +x if flipX), and converting a pixel position to the sky and back, or a sky position to pixels and back, gives the position itself.", "quantifier": "every pixel scale, rotation, flip, reference pixel, reference position, position, distance and bearing", "why_tests_cant": "Continuous domain with singular points (poles, the far hemisphere) and arbitrary rotations.", "anchors": ["python/lsst/skymap/detail/wcsFactory.py: WcsFactory.__init__, WcsFactory.makeWcs", "python/lsst/skymap/baseSkyMap.py: BaseSkyMap.__init__"]}
{"id": "C57", "title": "An explicit-radius tract contains its configured disc", "statement": "A tract built with a radius (ExplicitTractInfo: Discrete and Rings) and TAN or STG projection without rotation contains every position within radius + overlap of its centre, even the square around that disc. With rotation theta it contains the disc shrunk by max(|cos theta|, |sin theta|) in the plane, and no more than half a patch and two pixels beyond: at 45 degrees it misses positions within the radius.", "quantifier": "every radius, overlap, centre, pixel scale, patch size, projection, rotation, position, and history of the sky map", "why_tests_cant": "Continuous domain, arbitrary geometry.", "anchors": ["python/lsst/skymap/tractInfo.py: ExplicitTractInfo, TractInfo._minimumBoundingBox, TractInfo.contains", "python/lsst/skymap/discreteSkyMap.py: DiscreteSkyMap.generateTract"]}
{"id": "C58", "title": "The tract that a Rings sky map finds contains the position, given enough overlap", "statement": "For a version-1 RingsSkyMap with TAN or STG projection (STG is the default), no rotation and at least two rings, and a tractOverlap of at least a sixth of the ring height (30/(numRings+1) degrees; exact arithmetic), the tract that findTract(p) returns contains p, whatever calls came before, and findTract succeeds. This fails for small overlaps: with TAN, 120 rings, 1 arc minute, 0.2 arcsec pixels and 4000-pixel patches there is a position that the tract found for it does not contain.", "quantifier": "every number of rings, raStart, overlap, pixel scale, patch size, position and history", "why_tests_cant": "Continuous domain, arbitrary ring counts; the failing positions are a few seconds of arc wide.", "anchors": ["python/lsst/skymap/ringsSkyMap.py: RingsSkyMap.findTract, generateTract", "python/lsst/skymap/tractInfo.py: ExplicitTractInfo, TractInfo.contains"]}
{"id": "C59", "title": "Tracts of an equatorial sky map contain their declination band and their right ascension interval", "statement": "An EquatSkyMap with CEA projection, no rotation and numTracts >= 2 (|decRange| < 90 deg, band plus half the overlap within the poles) can be built, tract k contains every position whose declination is within the range extended by half the overlap and whose right ascension is within half the tract width plus the reach of half the overlap from its middle, and findTract(p) returns a tract that contains p for every such declination. With numTracts = 1 and no overlap the tract does not even contain its own centre.", "quantifier": "every number of tracts, declination range, overlap, pixel scale, patch size and position", "why_tests_cant": "Continuous domain; arbitrary tract counts; wrap-around of right ascension.", "anchors": ["python/lsst/skymap/equatSkyMap.py: EquatSkyMap.__init__", "python/lsst/skymap/tractInfo.py: TractInfo._minimumBoundingBox, TractInfo.contains", "python/lsst/skymap/baseSkyMap.py: BaseSkyMap.findTract"]}
{"id": "C60", "title": "Dodecahedral tracts contain their inner regions, so the sky map covers the sky", "statement": "Every tract of a DodecaSkyMap contains (TractInfo.contains) its whole inner region, and the tract that findTract returns for a position contains that position, in both orientations of the dodecahedron and for every rotation and pixel scale: with the gnomonic projection (TAN) for every tract overlap from 0 to 90 degrees, with the stereographic projection (STG, the default) for every overlap from 3 degrees (the default is 3.5). The overlap is needed with STG: with none there is for every tract a rotation for which it does not contain a position that findTract finds in it.", "quantifier": "all positions on the sphere, all iteration orders of sets, both orientations, all rotations, pixel scales, patch sizes and overlaps in the ranges", "why_tests_cant": "Tests probe a few positions with the default configuration; whether a rectangle in a projected plane that is fitted to 120 sample positions contains every position of a curved face has to hold for a continuum of positions and rotations.", "anchors": ["python/lsst/skymap/dodecaSkyMap.py: DodecaSkyMap.__init__", "python/lsst/skymap/dodecaSkyMap.py: DodecaSkyMap.findTract", "python/lsst/skymap/tractInfo.py: TractInfo._minimumBoundingBox", "python/lsst/skymap/tractInfo.py: TractInfo.contains", "python/lsst/skymap/detail/wcsFactory.py: WcsFactory.makeWcs"]}
{"id": "C61", "title": "Tracts given by vertices extend beyond their polygon by nearly half the overlap", "statement": "A tract with the gnomonic projection (TAN) that is given by its vertices (HEALPix and dodecahedral sky maps) contains (TractInfo.contains) every position within an angle e of the spherical polygon of its vertices, where tan e = cos(7.5 deg) * tan(tractOverlap / 2), which is at least 99.1% of half the overlap: for any number and arrangement of vertices, any rotation of the pixels, any pixel scale and any overlap, provided all positions within half the overlap of a vertex are less than 90 degrees from the centre of the tract. So adjacent tracts share a strip along their common edge.", "quantifier": "all vertex lists, centres, rotations, pixel scales, patch sizes, overlaps, and all positions near the polygon; all access histories", "why_tests_cant": "Tests compare the bounding boxes of a few tracts; that 24 sample positions per vertex suffice for every position within a continuous margin of an arbitrary polygon is a geometric theorem.", "anchors": ["python/lsst/skymap/tractInfo.py: TractInfo._minimumBoundingBox", "python/lsst/skymap/tractInfo.py: TractInfo.contains", "python/lsst/skymap/healpixSkyMap.py: HealpixSkyMap.generateTract", "python/lsst/skymap/dodecaSkyMap.py: DodecaSkyMap.__init__", "python/lsst/skymap/detail/wcsFactory.py: WcsFactory.makeWcs"]}
{"id": "C62", "title": "All tracts of a rings, equal-radius discrete or equatorial sky map have the same size", "statement": "All tracts of a rings sky map (any number of rings, either version, TAN or STG, any rotation, even with rounded arithmetic), of a discrete sky map whose radii are equal, and of an equatorial sky map have the same number of patches and bounding boxes of the same size. So, although all tracts share one builder, any tract, whatever was accessed before and after it, answers as if it were the only one; and if the tracts overlap enough to cover their part of the sky (C57, C58, C59) and have fewer than 2^53 pixels along each axis, findTract (for discrete sky maps: the tract of any centre within radius and overlap) followed by findPatch finds a patch of that tract whose inner box contains the pixel of the position.", "quantifier": "every configuration of the three kinds of sky map, every history of accesses, every position on the sky", "why_tests_cant": "the shared builder is overwritten by every tract built; a test sees only one history and only one configuration, and equality of sizes depends on the projected corners of every tract", "anchors": ["python/lsst/skymap/ringsSkyMap.py:RingsSkyMap.generateTract", "python/lsst/skymap/discreteSkyMap.py:DiscreteSkyMap.generateTract", "python/lsst/skymap/equatSkyMap.py:EquatSkyMap.__init__", "python/lsst/skymap/tractInfo.py:TractInfo.findPatch", "python/lsst/skymap/cachingSkyMap.py:CachingSkyMap.__getitem__"]}
{"id": "C63", "title": "Registering a concrete sky map succeeds and stores exactly its rows", "statement": "A rings sky map (version 1, TAN or STG, tracts reaching less than 90 degrees from their centres), a discrete sky map with equal radii (within the reach of its projection) and an equatorial sky map can be registered under a new name in any registry that earlier registrations can have left, whatever tracts were accessed before, if the butler itself does not fail; afterwards the registry has exactly one row per tract and per patch, with the right numbers and regions, and one dataset.", "quantifier": "every such configuration, every history of accesses, every sound registry, every new name", "why_tests_cant": "register iterates over all patches of all tracts with a builder they share; that no step can raise and that no row is missing, repeated or wrongly numbered depends on all tracts and on the access history", "anchors": ["python/lsst/skymap/baseSkyMap.py:BaseSkyMap.register", "python/lsst/skymap/ringsSkyMap.py:RingsSkyMap.generateTract", "python/lsst/skymap/discreteSkyMap.py:DiscreteSkyMap.generateTract", "python/lsst/skymap/equatSkyMap.py:EquatSkyMap.__init__"]}
{"id": "C64", "title": "With the TAN projection on-sky polygons are exactly the sky areas of their boxes, and registered regions cover the sky", "statement": "With a TAN WCS (any scale, rotation, flip) the outer polygon of a tract, and the inner and outer polygon of a patch and of a cell, contain exactly the positions whose pixel position is in the pixel area of the box they were made from. So a tract that contains a position has it in its polygon; the patch found for a position has it in both polygons; the inner polygons of the patches together cover exactly the polygon of the tract, and two of them share only positions on the lines between patches. After a rings sky map with an overlap of at least 30/(numRings+1) degrees has been registered, every position on the sky is in the region of a tract row and in the region of a patch row of that tract.", "quantifier": "every tract, patch and cell with a TAN WCS; every position on the sky; every rings configuration with enough overlap, every history and sound registry", "why_tests_cant": "equality of two sets of positions on the sky, for every box, projection centre and orientation: no finite set of positions shows it", "anchors": ["python/lsst/skymap/detail/utils.py:makeSkyPolygonFromBBox", "python/lsst/skymap/tractInfo.py:TractInfo.getOuterSkyPolygon", "python/lsst/skymap/patchInfo.py:PatchInfo.getInnerSkyPolygon", "python/lsst/skymap/cellInfo.py:CellInfo.getOuterSkyPolygon", "python/lsst/skymap/baseSkyMap.py:BaseSkyMap.register"]}
{"id": "C65", "title": "With the STG projection tract polygons contain the tract, and patch regions contain the patch if the border is large enough", "statement": "With an STG WCS (any scale, rotation, flip): the outer polygon of a tract whose corners are less than 90 degrees from the projection centre contains every position the tract contains; the outer polygon of a patch contains every position whose pixel is in the inner box of the patch if scale*(inner size + 2*border)^2 <= 12*border (scale in radians per pixel) in both axes. On a dodecahedral sky map with overlap from 3 to 20 degrees and pixels that are not too large every position on the sky is in the polygon of the tract found for it, and with such a border in the outer polygon of one of its patches. After a rings sky map with an overlap of at least 30/(numRings+1) degrees (the default configuration with 120 rings is one) has been registered, every position on the sky is in the stored region of a tract and, with such a border, in the stored region of one of its patches. Without a border the regions leave gaps: a patch to one side of the projection centre has a position in its inner box, and is the patch found for it, whose polygon (inner and outer) does not contain the position.", "quantifier": "every tract and patch with an STG WCS; every position on the sky; every dodecahedral and rings configuration within the limits, every history and sound registry", "why_tests_cant": "containment of one set of positions on the sky in another, for every box, projection centre and orientation: no finite set of positions shows it", "anchors": ["python/lsst/skymap/detail/utils.py:makeSkyPolygonFromBBox", "python/lsst/skymap/tractInfo.py:TractInfo.getOuterSkyPolygon", "python/lsst/skymap/patchInfo.py:PatchInfo.getOuterSkyPolygon", "python/lsst/skymap/dodecaSkyMap.py:DodecaSkyMap", "python/lsst/skymap/ringsSkyMap.py:RingsSkyMap", "python/lsst/skymap/baseSkyMap.py:BaseSkyMap.register"]}
{"id": "C66", "title": "With the CEA projection polygons of tracts on the equator contain the tract; the registered regions of an equatorial sky map cover its strip", "statement": "With a CEA WCS whose reference position is on the equator (no rotation; any scale and flip), and boxes less than 180 degrees wide that do not reach a pole: the polygon made from a box is exactly the set of positions between the two sides (meridians) of the box and between the great circles through its two bottom and its two top corners. So the outer polygon of a tract that contains its reference position contains every position the tract contains, and the outer polygon of a patch of it contains every position whose pixel is in the inner box of the patch if scale*(inner width + 2*border)^2 <= 8*border (scale in radians per pixel). On an equatorial sky map with at least four tracts that reaches the equator, stays within 60 degrees of it and has pixels that are not too large, every position in the configured strip is in the polygon of the tract found for it, with such a border also in the outer polygon of one of its patches; and after `register` the same holds of the regions stored in the registry. A tract (or a patch without border) that lies north of the equator, or south of it, has positions that are not in its polygon; every tract of an equatorial sky map north of the equator does.", "quantifier": "every tract and patch with such a CEA WCS; every position on the sky; every equatorial configuration within the limits", "why_tests_cant": "equality or containment of sets of positions on the sky, for every box and every position: no finite set of positions shows it", "anchors": ["python/lsst/skymap/detail/utils.py:makeSkyPolygonFromBBox", "python/lsst/skymap/tractInfo.py:TractInfo.getOuterSkyPolygon", "python/lsst/skymap/patchInfo.py:PatchInfo.getOuterSkyPolygon", "python/lsst/skymap/equatSkyMap.py:EquatSkyMap", "python/lsst/skymap/baseSkyMap.py:BaseSkyMap.register"]}
{"id": "C67", "title": "Threads that share a caching sky map see what a single thread sees, up to object identity", "statement": "A caching sky map (rings, discrete, healpix) is used by any number of threads at once, where single reads and writes of attributes and list elements are atomic and nothing else is. Under every schedule, from any state a single thread can have left: every `skyMap[i]`, `list(skyMap)`, `findTract` (inherited, or that of rings and HEALPix sky maps) and `findAllTracts` (rings) gives the exception or the contents of the tracts that it gives on a newly built sky map used by one thread, and every `getSha1` gives the digest. If all tracts have the same number of patches, every `getPatchInfo`, `findPatch`, `findPatchList`, iteration, `getSequentialPatchIndexFromPair` and `getPatchIndexPair` on a tract that any thread was given gives what it gives on a newly built sky map in which only that tract was accessed. If all tracts have been accessed before, then the threads change nothing and every call gives exactly what it gives with one thread, the identical tract objects included, whatever the numbers of patches. There is no deadlock. Not guaranteed: two threads may be given different objects for the same tract, and with tracts of different sizes a lookup during a construction may raise RuntimeError for a valid patch.", "quantifier": "every number of threads, every sequence of calls, every schedule of their atomic steps, every history before", "why_tests_cant": "the number of schedules is unbounded and a test runs one of them; races show up rarely", "anchors": ["python/lsst/skymap/cachingSkyMap.py:CachingSkyMap.__getitem__", "python/lsst/skymap/cachingSkyMap.py:CachingSkyMap.__iter__", "python/lsst/skymap/tractBuilder.py:BaseTractBuilder.setupPatches", "python/lsst/skymap/tractBuilder.py:LegacyTractBuilder.getPatchInfo", "python/lsst/skymap/baseSkyMap.py:BaseSkyMap.getSha1", "python/lsst/skymap/baseSkyMap.py:BaseSkyMap.findTract", "python/lsst/skymap/ringsSkyMap.py:RingsSkyMap.findTract", "python/lsst/skymap/ringsSkyMap.py:RingsSkyMap.findAllTracts", "python/lsst/skymap/healpixSkyMap.py:HealpixSkyMap.findTract"]}
{"id": "C68", "title": "Patch lookups use the size of the tract created last, and nothing else of the history", "statement": "After every history of accesses to a caching sky map, with L the tract that was created last: getPatchInfo((x, y)) on any tract raises IndexError unless (x, y) is a patch index of L, and otherwise returns a patch with that index, the right inner box and the tract's WCS, numbered as L numbers it, its outer box being the inner box grown by the border and (legacy builder) clipped to L's box; getSequentialPatchIndexFromPair and getPatchIndexPair convert with L's numbers; findPatch on a tract, for a position on it, returns the right patch if the position's pixel is also a pixel of L and raises IndexError otherwise; findPatchList on a tract returns the patches with the indices that it returns on a new sky map on which only that tract was accessed, each as getPatchInfo gives it at the moment, if all these are patch indices of L, and raises IndexError otherwise; iterating over a tract raises IndexError unless L has at least as many patches along both axes. Hence patch lookups on a sky map are independent of the history (C20) exactly if all its tracts have the same number of patches.", "quantifier": "every caching sky map, every history of accesses (failing ones included), every tract, every index and position", "why_tests_cant": "all histories on sky maps with tracts of different sizes; the tests have only uniform ones", "anchors": ["python/lsst/skymap/baseSkyMap.py:BaseSkyMap.__init__", "python/lsst/skymap/tractBuilder.py:BaseTractBuilder.setupPatches", "python/lsst/skymap/tractBuilder.py:LegacyTractBuilder.getPatchInfo", "python/lsst/skymap/tractInfo.py:TractInfo.getPatchInfo", "python/lsst/skymap/tractInfo.py:TractInfo.findPatch", "python/lsst/skymap/tractInfo.py:TractInfo.findPatchList"]}
{"id": "C69", "title": "A packer's answers do not depend on earlier calls, but its band mapping is not copied", "statement": "After any sequence of pack and unpack calls on a packer, successful or not, every pack and unpack call gives what it would have given on a new packer, as long as nobody changes the mapping of bands that was given to the constructor. The packer does not copy that mapping: if a band is added to it after the packer has unpacked an integer, pack accepts the new band while unpack raises IndexError for the packed result.", "quantifier": "every packer, every sequence of calls and arguments (failing ones included)", "why_tests_cant": "all call sequences; the tests call pack and unpack once per packer", "anchors": ["python/lsst/skymap/packers.py:SkyMapDimensionPacker.__init__", "python/lsst/skymap/packers.py:SkyMapDimensionPacker._pack", "python/lsst/skymap/packers.py:SkyMapDimensionPacker.unpack"]}
{"id": "C70", "title": "A packer gives data IDs back exactly if bands are numbered by position", "statement": "For a packer with room for at least one tract and one patch: every data ID of its dimensions with non-negative tract and patch numbers that can be packed comes back from unpack unchanged, if and only if (bands not being used, or) every band whose number is below the maximum has the number of its position in the mapping (a negative number counting from the end). unpack never returns a negative or too large patch number nor, with bands, such a tract number.", "quantifier": "every packer (any mapping of bands, any sizes), every data ID, every integer", "why_tests_cant": "all mappings, sizes and data IDs; it is an equivalence, so it also says which mappings fail", "anchors": ["python/lsst/skymap/packers.py:SkyMapDimensionPacker._pack", "python/lsst/skymap/packers.py:SkyMapDimensionPacker.unpack"]}
{"id": "C71", "title": "Equal sky maps have the same tracts, except rings maps of different versions", "statement": "For two sky maps of any of the classes that compare equal, at any points of their lives, and whose tracts can be constructed: they have the same tracts (the same number, and at every index equal contents or the same exception) if and only if they are not RingsSkyMaps with two rings or more and of different versions; unless SHA-1 has a collision. Both with exact arithmetic and with the arithmetic of doubles (at most 2^31 rings, |raStart| <= 360 degrees).", "quantifier": "every pair of sky maps of the five classes, every configuration, version and history", "why_tests_cant": "all classes, configurations, versions and histories; the tests compare a few maps and never different versions", "anchors": ["python/lsst/skymap/baseSkyMap.py:BaseSkyMap.__eq__", "python/lsst/skymap/baseSkyMap.py:BaseSkyMap.getSha1", "python/lsst/skymap/ringsSkyMap.py:RingsSkyMap.updateSha1", "python/lsst/skymap/ringsSkyMap.py:RingsSkyMap.getRingIndices"]}
{"id": "C72", "title": "findAllTracts of a Rings sky map returns every tract that contains the position, if the tracts are not too large", "statement": "For a version-1 RingsSkyMap with at least two rings, no rotation and a TAN or STG projection, whose tracts have half a size of at most 0.579 of the height of a ring on the tangent plane (0.578 in double precision): findAllTracts(p), after any history, succeeds and returns exactly the tracts of the map that contain p; and findTractPatchList(coords) has exactly one entry for each tract that contains one of the coordinates. This fails for larger tracts: with 11 rings or more and an overlap of a tenth of the height of a ring or more there is a position in tract 1 for which findAllTracts never returns tract 1.", "quantifier": "every number of rings, raStart, overlap, pixel scale, patch size, position, list of coordinates and history", "why_tests_cant": "continuous domain and arbitrary ring counts; the positions that are missed lie near the poles, and the test only checks that the returned tracts contain the position", "anchors": ["python/lsst/skymap/ringsSkyMap.py:RingsSkyMap.findAllTracts", "python/lsst/skymap/ringsSkyMap.py:RingsSkyMap.findTractPatchList", "python/lsst/skymap/ringsSkyMap.py:RingsSkyMap.generateTract", "python/lsst/skymap/tractInfo.py:TractInfo.contains"]}
{"id": "C73", "title": "logSkyMapInfo writes one message for each tract, in order, whatever happened before", "statement": "logSkyMapInfo(log) writes the number of tracts and then, in the order of the indices, one message for each tract with its id, the sky positions of the corners of its outer polygon in order, and its own numbers of patches in x and y (not those of the tract constructed last), up to the first tract that cannot be constructed, whose exception it raises. Messages and outcome do not depend on the history of the sky map, which is changed only as by accesses to its tracts; a map whose tracts were built by the constructor is not changed and gives one message for each tract.", "quantifier": "every sky map, every history of accesses, every log", "why_tests_cant": "The test calls it on one map and checks the number of messages; the independence of the history of a map with a shared builder needs every history.", "anchors": ["python/lsst/skymap/baseSkyMap.py:BaseSkyMap.logSkyMapInfo", "python/lsst/skymap/cachingSkyMap.py:CachingSkyMap.__iter__"]}
{"id": "C74", "title": "Iterators over tracts and patches give the right objects whatever is done between two calls of next", "statement": "A program opens any number of iterators over a sky map and over the patches of its tracts and calls next on them in any order, with any accesses to tracts in between. Each iterator over tracts gives skyMap[0], skyMap[1], ... (the same objects) and then StopIteration, unless the construction of a tract raises, which ends it; each call gives one answer to the iterator that was asked. Each iterator over the patches of a tract gives the patches in the order of the sequential index, each with the right index, inner box and WCS; if all tracts have the same number of patches it gives exactly the patches the tract has on a new map, all of them, and never raises. With tracts of different sizes a call can raise IndexError, because another tract was constructed in between.", "quantifier": "every program, i.e. every interleaving of accesses and calls of next on any number of iterators, every sky map", "why_tests_cant": "A test runs a few interleavings; the iterators are generators that read shared mutable state at each step.", "anchors": ["python/lsst/skymap/cachingSkyMap.py:CachingSkyMap.__iter__", "python/lsst/skymap/tractInfo.py:TractInfo.__iter__", "python/lsst/skymap/tractInfo.py:TractInfo.getPatchInfo", "python/lsst/skymap/baseSkyMap.py:BaseSkyMap.__iter__"]}
{"id": "C75", "title": "Sky maps with their default configuration work from construction to registration", "statement": "DodecaSkyMap() (with or without tracts on the poles), EquatSkyMap() and a RingsSkyMap with 29 rings or more and default fields otherwise can be built. For every position (on the whole sky; for the equatorial map with a declination of at most 1.75 degrees) findTract finds a tract that contains it, and findPatch on this tract finds the patch that has the position in its inner box, whatever tracts were accessed before or in between. They can be registered under a new name in any registry, which then has exactly one row per tract and per patch, and the position is in the region of the row of its tract and of the row of one of its patches. All twelve tracts of the default DodecaSkyMap have 350 by 334 patches, so that the builder they share is right for all of them. A HealpixSkyMap with any non-negative log2NSide, either order and default fields otherwise can be built and has 12*4**log2NSide tracts, all of which can be accessed after any history; findTract gives for every position the tract whose id is the number of the HEALPix pixel it is in. DiscreteSkyMap() can be built but has no tract: findTract raises IndexError and register raises ValueError without changing the registry.", "quantifier": "every position, every registry, every history, every order of Python's sets, every number of rings from 29, either orientation of the dodecahedron", "why_tests_cant": "Tests look at a few positions; the statement is about all positions and all registries, and depends on the sizes of all tracts.", "anchors": ["python/lsst/skymap/dodecaSkyMap.py:DodecaSkyMapConfig.setDefaults", "python/lsst/skymap/equatSkyMap.py:EquatSkyMapConfig.setDefaults", "python/lsst/skymap/baseSkyMap.py:BaseSkyMapConfig", "python/lsst/skymap/baseSkyMap.py:BaseSkyMap.register", "python/lsst/skymap/ringsSkyMap.py:RingsSkyMapConfig", "python/lsst/skymap/discreteSkyMap.py:DiscreteSkyMapConfig", "python/lsst/skymap/tractBuilder.py:LegacyTractBuilderConfig"]}
{"id": "C76", "title": "32-bit pixel integers never give a wrong box, and are enough", "statement": "lsst.geom stores pixel coordinates in 32-bit integers. Whatever the sizes, a tract, patch, cell or list of patches that is returned is the one that unbounded integers would give, and its boxes fit: an overflow is an error, not a wrong box. If the pixels that size the tract are within N of its reference pixel and 2N plus one patch plus 2 fits in 32 bits, the tract is built without an overflow; if the tract and a border on both sides fit, getPatchInfo (and with the cell border getCellInfo) gives for every argument the same result or the same error as with unbounded integers, contains and findPatch give the same answer for every position on the sky whatever an out-of-range pixel is converted to (smallest or largest integer), and findPatchList gives the same list for positions whose pixels are within N when 2N and the borders fit. With pixels of a milliarcsecond or more, tracts of at most 45 degrees radius, and patches and borders of at most 10^8 pixels these conditions hold for tracts of a given radius, and they hold for all tracts of the default DodecaSkyMap.", "quantifier": "every tract, builder, patch and cell index argument, position and list of positions", "why_tests_cant": "Overflow occurs only at sizes and positions that no test uses; the statement is about all of them.", "anchors": ["python/lsst/skymap/tractBuilder.py:BaseTractBuilder.setupPatches", "python/lsst/skymap/tractBuilder.py:LegacyTractBuilder.getPatchInfo", "python/lsst/skymap/tractBuilder.py:CellTractBuilder.getPatchInfo", "python/lsst/skymap/patchInfo.py:PatchInfo.getCellInfo", "python/lsst/skymap/tractInfo.py:TractInfo.findPatch", "python/lsst/skymap/tractInfo.py:TractInfo.findPatchList", "python/lsst/skymap/tractInfo.py:TractInfo.contains"]}
{"id": "C77", "title": "Tract ids of a rings sky map in 32-bit arrays", "statement": "RingsSkyMap.findTractIdArray works on numpy int32 arrays. Whatever the number of tracts, an array that it returns is the one that unbounded integers would give (C30): no tract id is wrapped to another number. On a sky map of at most 2^31 tracts (every one of up to 26000 rings) it gives, for every argument, exactly the result or the error of the unbounded function. With more than 2^31 tracts every call on two arrays of the same length raises OverflowError, even on empty arrays.", "quantifier": "every number of rings, raStart, version, scalar or array arguments in radians or degrees, and every rounding arithmetic that meets the IEEE bounds", "why_tests_cant": "Wrapping would only show on sky maps larger than a test builds; the statement covers all sizes and all positions.", "anchors": ["python/lsst/skymap/ringsSkyMap.py:RingsSkyMap.findTractIdArray", "python/lsst/skymap/ringsSkyMap.py:RingsSkyMap.__init__"]}
{"id": "C78", "title": "Every position of the sky is in some tract of a rings sky map", "statement": "The tract that findTract returns need not contain the position if the overlap is small (C58). But for a version-1 RingsSkyMap with 31 rings or more, no rotation and TAN or STG projection, whose overlap is at least 1/48 of the height of a ring (3.75/(numRings+1) degrees and 10^-9), every position of the sky is contained in some tract, whatever was accessed before, with rounded arithmetic. The same with TAN and a smaller overlap, if the whole patches to which the tracts grow reach that far; in particular for the Rubin Observatory's sky map (120 rings, overlap 1 arc minute, 0.2 arc seconds, patches of 4000 pixels), where findAllTracts therefore never returns an empty list. This is not automatic: the same sky map with patches of 200 pixels has a position that no tract contains, for which findAllTracts returns an empty list.", "quantifier": "every number of rings from 31, raStart, overlap, pixel scale, patch size, position, history, and every rounding arithmetic that meets the IEEE bounds", "why_tests_cant": "The positions in question are slivers near the corners of tracts close to the poles; tests sample positions. Covering the whole sphere is a statement about all positions and all numbers of rings.", "anchors": ["python/lsst/skymap/ringsSkyMap.py:RingsSkyMap.__init__", "python/lsst/skymap/ringsSkyMap.py:RingsSkyMap.generateTract", "python/lsst/skymap/ringsSkyMap.py:RingsSkyMap.findAllTracts", "python/lsst/skymap/tractInfo.py:ExplicitTractInfo._minimumBoundingBox", "python/lsst/skymap/tractBuilder.py:BaseTractBuilder.setupPatches"]}
{"id": "C79", "title": "A sky map has the tracts that its configuration asks for", "statement": "For every class of sky maps, at any point of the life of the sky map: the number of tracts is the one that the configuration asks for (12*4**log2NSide; the number of radii; the tracts of numRings rings; numTracts; 12), and skyMap[k] has id k, the configured overlap in radians, a WCS with the configured pixel scale, projection and rotation up to a shift by whole pixels, and the centre and size that the configuration asks for: pixel k of hpgeom in the configured ordering (HEALPix), the k-th configured position and radius (discrete), tract k of the division into rings with the configured raStart and version (rings), the k-th interval of right ascension between the configured declinations with the reference position on the equator (equatorial), face k of the dodecahedron with or without tracts on the poles as configured (dodecahedral). It is what the constructor of tracts makes with a new tract builder as configured, whatever was accessed before.", "quantifier": "every configuration, version, class of sky maps, index and history of accesses, and (except for the equatorial map) every floating-point arithmetic", "why_tests_cant": "Tests build a few configurations, mostly the default ones, and compare some numbers; a field that is read at the wrong place or not at all agrees with the default.", "anchors": ["python/lsst/skymap/healpixSkyMap.py:HealpixSkyMap.__init__", "python/lsst/skymap/healpixSkyMap.py:HealpixSkyMap.generateTract", "python/lsst/skymap/discreteSkyMap.py:DiscreteSkyMap.__init__", "python/lsst/skymap/discreteSkyMap.py:DiscreteSkyMap.generateTract", "python/lsst/skymap/ringsSkyMap.py:RingsSkyMap.generateTract", "python/lsst/skymap/equatSkyMap.py:EquatSkyMap.__init__", "python/lsst/skymap/dodecaSkyMap.py:DodecaSkyMap.__init__", "python/lsst/skymap/baseSkyMap.py:BaseSkyMap.__init__"]}
{"id": "C80", "title": "Inner sky regions of tracts", "statement": "tract.inner_sky_region, for each class of sky maps. Dodecahedral: a position is in the region exactly if no other tract has a nearer centre, the tract that findTract returns has the position in its region, and a position in two regions is on an edge of each. Equatorial with at least 3 tracts and declinations strictly between the poles: the region is exactly the spherical quadrilateral between the meridians of its ends, bounded by the great circles (not the parallels) through the corners; if the strip straddles the equator, the tract that findTract returns for a position of the strip has it in its region, and two regions meet only on edges; if the strip is north (south) of the equator, the middle of the southern (northern) edge of every tract is in no region at all; with 1 or 2 tracts the region is degenerate, within the meridians 0 and pi. Explicitly placed tracts (discrete, and the inner polygon of rings) with the projection TAN: the inner polygon is exactly the tract's pixel area but a thousandth of a pixel at the edges - the overlap belongs to it - so it lies in the tract. Tracts given by vertices (HEALPix, dodecahedral) with TAN: the inner region lies in the tract if its vertices with half of the overlap are less than 90 degrees from the centre.", "quantifier": "every position, and every configuration in the stated ranges", "why_tests_cant": "A test can check a few positions per tract; the statements are about all positions of the sky, all tract sizes and strips.", "anchors": ["python/lsst/skymap/tractInfo.py:TractInfo.getInnerSkyPolygon", "python/lsst/skymap/tractInfo.py:TractInfo.getInnerSkyRegion", "python/lsst/skymap/tractInfo.py:ExplicitTractInfo.__init__", "python/lsst/skymap/dodecaSkyMap.py:DodecaSkyMap.__init__", "python/lsst/skymap/equatSkyMap.py:EquatSkyMap.__init__", "python/lsst/skymap/discreteSkyMap.py:DiscreteSkyMap.generateTract"]}
{"id": "C81", "title": "What a client can change through the objects it gets", "statement": "lsst.geom boxes and extents and Python lists are mutable. Whatever sequence of calls a client makes, and whatever it assigns, between calls, to the boxes that TractInfo.getBBox, PatchInfo and CellInfo returned and to the extents that PatchInfo.getCellInnerDimensions returned, every answer of the sky map (tracts, their boxes, vertices and patch dimensions, patches) is the one it gives to a client that assigns nothing; for tracts given by vertices (HEALPix, dodecahedron, equatorial) also if it assigns to what getVertexList returned, which is a tuple. Two patch or cell objects never share a box, even for the same index, but one object and its callers do: a patch whose inner box a client has moved makes moved cells. Two getters do leak: an assignment to the extent returned by getPatchInnerDimensions of any tract changes the patches of all tracts of the sky map from then on, to exactly those of a sky map with the assigned dimensions, and an assignment to the list returned by getVertexList of an explicitly placed tract (rings, discrete) replaces the vertices of that tract for everybody and changes nothing else.", "quantifier": "every sky map definition, tract builder, sequence of requests and assignments of any length, index, assigned value", "why_tests_cant": "aliasing shows only for particular interleavings of calls and assignments; tests never assign to a returned box, and no finite set of histories shows that none leaks", "anchors": ["python/lsst/skymap/tractInfo.py:TractInfo.getBBox", "python/lsst/skymap/tractInfo.py:TractInfo.getVertexList", "python/lsst/skymap/tractInfo.py:TractInfo.getPatchInnerDimensions", "python/lsst/skymap/tractInfo.py:ExplicitTractInfo.__init__", "python/lsst/skymap/patchInfo.py:PatchInfo.getInnerBBox", "python/lsst/skymap/patchInfo.py:PatchInfo.getOuterBBox", "python/lsst/skymap/patchInfo.py:PatchInfo.getCellInnerDimensions", "python/lsst/skymap/patchInfo.py:PatchInfo.getCellInfo", "python/lsst/skymap/cellInfo.py:CellInfo.getInnerBBox", "python/lsst/skymap/tractBuilder.py:BaseTractBuilder.setupPatches", "python/lsst/skymap/tractBuilder.py:LegacyTractBuilder.getPatchInfo", "python/lsst/skymap/tractBuilder.py:CellTractBuilder.getPatchInfo", "python/lsst/skymap/cachingSkyMap.py:CachingSkyMap.__getitem__"]}
{"id": "C82", "title": "Concurrent registrations are as if made one after the other", "statement": "If several processes call register on one repository at the same time, under any interleaving of their statements, with any failures of the butler and with processes that vanish at any moment, then: there is one order of all calls, in which a call that had ended when another one began comes before it, such that what is committed is what the calls leave if made one after the other in this order, and each call that ends returns or raises what it does at its place, a moment between its begin and its end; keys stay unique and references valid; nobody ever sees a part of a sky map; of several different sky maps with the same name only one is registered, while all processes that register the same sky map succeed; and there is no deadlock: if nothing else happens all calls end.", "quantifier": "all numbers of processes, sky maps, names, schedules, failures and crash points, and all repositories to begin with", "why_tests_cant": "Races between processes depend on the schedule, and tests run one process", "anchors": ["python/lsst/skymap/baseSkyMap.py:BaseSkyMap.register", "python/lsst/skymap/baseSkyMap.py:BaseSkyMap.getSha1"]}
{"id": "C83", "title": "Coordinates that are not positions", "statement": "For a RingsSkyMap, coordinates that are NaN, infinite or beyond the poles: SpherePoint refuses latitudes that are infinite or beyond the poles and nothing else. findTract raises ValueError for a NaN declination, and for a NaN right ascension unless the declination is in a polar cap, in which case the cap is returned; it raises nothing else. findAllTracts raises ValueError whenever a coordinate is NaN. The vectorised findTractIdArray, in radians or degrees, never raises: each element depends only on its own coordinates; an infinite declination or one in a cap gives the cap whatever the right ascension; a NaN declination silently gives the tract of the southernmost ring at this right ascension; a NaN or infinite right ascension in a ring gives the number that the machine makes of NaN in that ring, which on x86 is negative. The two ways of lookup agree exactly when the declination is a number between the poles and the right ascension is a number or does not matter. The default findTract of other sky maps returns the first tract when no separation is a number. findTract of a dodecahedral sky map returns the first tract whenever an angle of the coordinate is NaN.", "quantifier": "every numRings, raStart and version; every float, finite or not, as coordinate; arrays of any length; every machine's conversion of NaN to an integer; every rounding arithmetic of double precision", "why_tests_cant": "The special values of floats occur at every position of arrays of any length and next to every finite value", "anchors": ["python/lsst/skymap/ringsSkyMap.py:RingsSkyMap.findTract", "python/lsst/skymap/ringsSkyMap.py:RingsSkyMap.findTractIdArray", "python/lsst/skymap/ringsSkyMap.py:RingsSkyMap.findAllTracts", "python/lsst/skymap/ringsSkyMap.py:RingsSkyMap._decToRingNum", "python/lsst/skymap/ringsSkyMap.py:RingsSkyMap._raToTractNum", "python/lsst/skymap/baseSkyMap.py:BaseSkyMap.findTract", "python/lsst/skymap/dodecaSkyMap.py:DodecaSkyMap.findTract", "python/lsst/skymap/detail/dodecahedron.py:Dodecahedron.getFaceInd"]}
{"id": "C84", "title": "Lookups with inexact distances", "statement": "The lookups compare distances that are computed with rounding errors. If each computed distance is within e of the true one, then: the default findTract returns a tract whose centre is nearer than 2*e plus the distance of any other centre, and the nearest tract itself if it is nearer than all others by more than 2*e; on an equatorial sky map with two tracts or more and the CEA projection the tract that is found contains the position, provided e is less than cos(dec)*cos(middle dec)*sin(w)*min(sin(w), sin(r)), where w is half the width of a tract in right ascension and r the reach of half the overlap; on a dodecahedral sky map, where dot products are compared, the tract that is found has the position within arcsin(4*e) of its inner region, and it contains the position if e is at most a thirteenth of the overlap (TAN, at most 90 degrees) or 1/5000 (STG, overlaps of 3 degrees or more).", "quantifier": "every error of the computed distances within the bound, even if it depends on the tract and the position; every position; every number of tracts, declination range, overlap, pixel scale, rotation and patch size; both orientations of the dodecahedron", "why_tests_cant": "The error of each comparison depends on the position and the mathematical library; the critical positions are those on the boundaries of the tracts", "anchors": ["python/lsst/skymap/baseSkyMap.py:BaseSkyMap.findTract", "python/lsst/skymap/dodecaSkyMap.py:DodecaSkyMap.findTract", "python/lsst/skymap/detail/dodecahedron.py:Dodecahedron.getFaceInd", "python/lsst/skymap/equatSkyMap.py:EquatSkyMap"]}
{"id": "C85", "title": "Searches in a sky map shared by threads", "statement": "Threads that share a caching sky map may search it for tracts and patches while other threads access tracts for the first time, provided the tracts have the same number of patches and the same patch size. Every findTractPatchList that has ended gave the list, or raised the exception, that one thread gets on a newly built sky map. Every findClosestTractPatchList, and every findTractPatchList of a RingsSkyMap, gave the exception that one thread gets, or its list with, at worst, some entries repeated; leaving out the repetitions gives exactly that list. If all tracts have been accessed before the threads start, the results are exactly those of one thread, repetitions included, for every sky map. No search waits for another, and other calls are not disturbed. It is not true that findClosestTractPatchList lists a tract once: tract objects are compared by identity, and another thread may replace the object in the cache during the search.", "quantifier": "every number of threads, every interleaving of their steps (each read or write of a shared attribute is a step), every mix of searches and other calls, every list of positions, every caching sky map", "why_tests_cant": "A test runs a few of the interleavings, and which one runs is not under its control", "anchors": ["python/lsst/skymap/baseSkyMap.py:BaseSkyMap.findTractPatchList", "python/lsst/skymap/baseSkyMap.py:BaseSkyMap.findClosestTractPatchList", "python/lsst/skymap/ringsSkyMap.py:RingsSkyMap.findTractPatchList", "python/lsst/skymap/cachingSkyMap.py:CachingSkyMap.__getitem__", "python/lsst/skymap/tractBuilder.py:LegacyTractBuilder.getPatchInfo"]}
{"id": "C86", "title": "The text of a patch or cell identifies it", "statement": "str of a tract, patch or cell tells its id or index and nothing else: two of them print the same exactly if these are the same. Two patches of any sky maps with sensible configurations, or two cells, print the same with repr exactly if they compare equal: no two different patches are confused in a log, and no difference shows in the text that == does not see. Within one tract str already identifies a patch. Of patches that a client makes by hand two can print the same and compare different, and two can compare equal and print differently.", "quantifier": "every pair of patches of every two tracts of every two sky maps with sensible configurations, with cells or without, every pair of cells, every pair of tracts", "why_tests_cant": "A test compares the texts of a few objects; that no two different ones share a text is a statement about all pairs", "anchors": ["python/lsst/skymap/patchInfo.py:PatchInfo.__str__", "python/lsst/skymap/patchInfo.py:PatchInfo.__repr__", "python/lsst/skymap/patchInfo.py:PatchInfo.__eq__", "python/lsst/skymap/cellInfo.py:CellInfo.__str__", "python/lsst/skymap/cellInfo.py:CellInfo.__repr__", "python/lsst/skymap/tractInfo.py:TractInfo.__str__", "python/lsst/skymap/tractInfo.py:TractInfo.__repr__", "python/lsst/skymap/detail/utils.py:Index2D"]}
{"id": "C87", "title": "Threads that share a packer", "statement": "Threads may share a packer: as long as nobody changes the mapping of bands it was given, every pack and unpack that has ended, under every interleaving, gave the result or raised the exception that one thread gets, although unpack fills in its list of bands without a lock. If the caller changes the mapping meanwhile, a pack is not disturbed as long as its band keeps its number, and an unpack as long as names and order of the bands stay; in general unpack goes by the names of some one of the mappings, and pack by one mapping for the check and one, perhaps another, for the number. It is not true that pack goes by the mapping of one moment: the band is looked up twice, and if its number is changed in between the integer can be one that no mapping gives and that does not fit in maxBits.", "quantifier": "every packer, every number of threads, every interleaving of their steps (each look-up in the mapping and each read or write of the list of bands is a step), every mix of calls, every history of changes of the mapping", "why_tests_cant": "A test runs a few of the interleavings, and which one runs is not under its control", "anchors": ["python/lsst/skymap/packers.py:SkyMapDimensionPacker._pack", "python/lsst/skymap/packers.py:SkyMapDimensionPacker.unpack", "python/lsst/skymap/packers.py:SkyMapDimensionPacker.__init__"]}
{"id": "C88", "title": "Configurations that cannot work", "statement": "What a wrong configuration leads to is known for every class. Refused by the constructor: a projection code not of three characters and more than two dimensions (every class), zero tracts (equatorial), a negative log2NSide (HEALPix), no rings or a version other than 0 and 1 (rings), and patches without pixels for the dodecahedral and equatorial classes. The caching classes accept patches without pixels, but then every access to a tract raises and changes nothing. The discrete class accepts lists of unequal length (only validate compares them): there are as many tracts as radii, those without a position raise IndexError at every access, and values beyond the shortest list do not influence the others. If any one tract cannot be obtained, then iteration, findTract, findTractPatchList and register raise, and the registry is left as it was. The only sky maps without tracts are equatorial ones with a negative number of tracts and discrete ones without radii: they iterate to nothing, findTractPatchList gives an empty list, findTract raises IndexError and register raises ValueError before it calls the butler.", "quantifier": "every class, every configuration of these kinds, every version, every position, every name, registry and faulty butler, after every history of accesses", "why_tests_cant": "Tests try a few wrong values with one class; which use fails, and that the registry stays as it was, concerns every class, value and history", "anchors": ["python/lsst/skymap/baseSkyMap.py:BaseSkyMap.__init__", "python/lsst/skymap/baseSkyMap.py:BaseSkyMap.register", "python/lsst/skymap/baseSkyMap.py:BaseSkyMap.findTract", "python/lsst/skymap/tractBuilder.py:BaseTractBuilder.setupPatches", "python/lsst/skymap/cachingSkyMap.py:CachingSkyMap.__getitem__", "python/lsst/skymap/discreteSkyMap.py:DiscreteSkyMap", "python/lsst/skymap/equatSkyMap.py:EquatSkyMap.__init__", "python/lsst/skymap/dodecaSkyMap.py:DodecaSkyMap.__init__"]}
{"id": "C89", "title": "An index that is a float never gives a tract, a patch or a cell", "statement": "If one of the numbers of an index is a Python float, even one with an integral value, NaN or an infinity: getPatchInfo raises IndexError if a number of the pair (the one converted from a sequential index) is not in the range 0 <= v < size of the grid and TypeError otherwise, and never returns a patch; getCellInfo likewise never returns a cell; skyMap[x] raises TypeError, except that the caching classes raise IndexError for a number that is negative or larger than the number of tracts and OverflowError for an infinity, and the sky map is left as it was. The conversions getPatchIndexPair, getSequentialPatchIndexFromPair, getCellIndexPair and getSequentialCellIndexFromPair do not check: they return floats. On ints all of these are the methods of C03-C06, C16 and C17.", "quantifier": "every builder with a grid of at least one column, every patch, every sky map and state, every index with a float and every arithmetic of floats", "why_tests_cant": "Tests use ints and a few floats; that no float slips through concerns all values, NaN and infinities, in both positions of a pair", "anchors": ["python/lsst/skymap/tractBuilder.py:LegacyTractBuilder.getPatchInfo", "python/lsst/skymap/tractBuilder.py:CellTractBuilder.getPatchInfo", "python/lsst/skymap/tractBuilder.py:BaseTractBuilder.getPatchIndexPair", "python/lsst/skymap/tractBuilder.py:BaseTractBuilder.getSequentialPatchIndexFromPair", "python/lsst/skymap/patchInfo.py:PatchInfo.getCellInfo", "python/lsst/skymap/patchInfo.py:PatchInfo.getCellIndexPair", "python/lsst/skymap/cachingSkyMap.py:CachingSkyMap.__getitem__", "python/lsst/skymap/baseSkyMap.py:BaseSkyMap.__getitem__"]}
{"id": "C90", "title": "Sky maps are reliable dictionary keys", "statement": "A dict (or set) whose keys include sky maps behaves as a map from SHA-1 values to values: after any sequence of stores, look-ups, deletions, comparisons, getSha1 calls and attempts to change configurations, d[skyMap] is the value last stored under a sky map with the same SHA-1 (so with the same class and configuration, and in particular a pickled copy) that was not deleted since, or KeyError; `in` and `del` agree, storing never fails. This holds whatever hash values collide and whatever other objects are keys of the same dict, and look-ups of those other objects are not affected by the sky maps. A sky map and an object without getSha1 are unequal from either side and != says so. If the configuration cannot be packed, all of these raise that error and leave the dict as it was.", "quantifier": "every family of sky maps, every sequence of dict operations, every hash function of bytes and every other keys with any hashes and any equality among themselves", "why_tests_cant": "Hash collisions do not occur in tests; the state of the cached hashes and the order of operations are unbounded.", "anchors": ["python/lsst/skymap/baseSkyMap.py:BaseSkyMap.__hash__", "python/lsst/skymap/baseSkyMap.py:BaseSkyMap.__eq__", "python/lsst/skymap/baseSkyMap.py:BaseSkyMap.__ne__", "python/lsst/skymap/baseSkyMap.py:BaseSkyMap.getSha1"]}
{"id": "C91", "title": "Membership tests and reversed iteration", "statement": "x in skyMap is True exactly for the tract objects that this sky map returns at some index, whatever was done with it before, so for every tract that it ever returned if all tracts can be built; if it is False, all tracts of a caching sky map have been built; it raises only what building some tract always raises, and no tract returned before changes. list(reversed(skyMap)) is the reverse of list(skyMap), with the identical objects. x in tract is True for a patch exactly if one of the tract's patches compares equal to it: for all of its own patches, but also for the patches of every other tract of the same sky map with the same number of patches; a cell gives False, or AttributeError if index and boxes are those of a patch; any object without getIndex gives AttributeError. x in patch is likewise True exactly for equal cells; a patch that has the index and the boxes of a cell counts as one; without cells the answer is always False. reversed gives the patches and cells in reverse. In a sky map with tracts of different sizes a tract's own patch can raise IndexError.", "quantifier": "every sky map and history of accesses, every object, every tract, every builder and patch", "why_tests_cant": "That no history of accesses changes the answer, and that the patches of other tracts compare equal, concerns all histories and pairs of tracts; tests look at single ones", "anchors": ["python/lsst/skymap/cachingSkyMap.py:CachingSkyMap.__iter__", "python/lsst/skymap/cachingSkyMap.py:CachingSkyMap.__getitem__", "python/lsst/skymap/baseSkyMap.py:BaseSkyMap.__iter__", "python/lsst/skymap/tractInfo.py:TractInfo.__iter__", "python/lsst/skymap/tractInfo.py:TractInfo.__getitem__", "python/lsst/skymap/patchInfo.py:PatchInfo.__iter__", "python/lsst/skymap/patchInfo.py:PatchInfo.__eq__", "python/lsst/skymap/cellInfo.py:CellInfo.__eq__"]}
{"id": "C92", "title": "What the choice of tract builder influences", "statement": "If two sky maps differ only in their tract builders and these have the same inner dimensions of patches (legacy or cells, any borders that are not negative), then after the same accesses skyMap[i] gives the same tract for every i - the same WCS, bounding box, number of patches and vertices - or the same exception, and findTract, and RingsSkyMap's findTract and findAllTracts, find the same tracts; a sky map that builds all tracts in its constructor has the same tracts. For every index, getPatchInfo of a tract gives patches with the same index, sequential index, inner box and WCS under the two builders, or the same exception; so do iteration and findPatch. With equal borders findPatchList and findTractPatchList list corresponding patches in the same order, and the outer box of a legacy patch is the part on the tract of the outer box of the cells builder's patch. A cells configuration corresponds to the legacy one with inner dimensions cells times number of cells and border numCellsInPatchBorder * cell + cellBorder.", "quantifier": "every two builders with the same positive patch dimensions, every tract, index, coordinate and list of coordinates, every caching sky map and history of accesses", "why_tests_cant": "Tests compare the two builders, if at all, on single sky maps; that a data repository can change its builder without any patch moving is a statement about every sky map, index and history", "anchors": ["python/lsst/skymap/tractBuilder.py:BaseTractBuilder.setupPatches", "python/lsst/skymap/tractBuilder.py:LegacyTractBuilder.getPatchInfo", "python/lsst/skymap/tractBuilder.py:CellTractBuilder.getPatchInfo", "python/lsst/skymap/tractBuilder.py:CellTractBuilder.__init__", "python/lsst/skymap/tractInfo.py:TractInfo.__init__", "python/lsst/skymap/tractInfo.py:TractInfo.findPatch", "python/lsst/skymap/tractInfo.py:TractInfo.findPatchList", "python/lsst/skymap/cachingSkyMap.py:CachingSkyMap.__getitem__", "python/lsst/skymap/baseSkyMap.py:BaseSkyMap.findTract", "python/lsst/skymap/baseSkyMap.py:BaseSkyMap.findTractPatchList", "python/lsst/skymap/ringsSkyMap.py:RingsSkyMap.findAllTracts"]}
{"id": "C93", "title": "Appending tracts to a discrete sky map", "statement": "If positions are appended to the lists of a DiscreteSkyMap configuration, then at any points of the histories of the two sky maps skyMap[i] gives the same tract for every old index, or the same exception. findTract of the extended sky map finds the same tract as before, unless a new tract has its centre strictly nearer; then it finds a new one. Patch lookups on an old tract give the same if only it was accessed, and always if all tracts have the same number of patches. Data IDs packed without bands keep their integer if the packer for the extended sky map has the same number of patches; with bands they keep it exactly if their band has number 0.", "quantifier": "every discrete configuration and every extension of it, every pair of histories, every index, coordinate and data ID", "why_tests_cant": "That a sky map in use can be extended without invalidating tract numbers is a claim about all configurations, extensions and histories; tests build single ones", "anchors": ["python/lsst/skymap/discreteSkyMap.py:DiscreteSkyMap.__init__", "python/lsst/skymap/discreteSkyMap.py:DiscreteSkyMap.generateTract", "python/lsst/skymap/cachingSkyMap.py:CachingSkyMap.__getitem__", "python/lsst/skymap/baseSkyMap.py:BaseSkyMap.findTract", "python/lsst/skymap/packers.py:SkyMapDimensionPacker._pack"]}
{"id": "C94", "title": "The order and the repetition of coordinates", "statement": "findPatchList gives the same patches in the same order, or the same exception, for two coordinate lists with the same members, whatever their order and repetitions, provided that no pixel position lies in the gap (a few units in the last place) that Box2D.include leaves above another one; findTractPatchList too, if this holds in every tract. Likewise a tract given by vertices has the same box and patches for every order of its vertices. Coordinates that have no finite pixel position can be left out. Appending coordinates never removes a patch from the list.", "quantifier": "every tract, builder and state of it, and every two coordinate lists; for the last claim every tract with patches of positive size and fewer than 2^53 pixels on a side", "why_tests_cant": "The claim compares the results for all permutations of all lists; it is false for coordinates closer than the gap, which no ordinary test hits", "anchors": ["python/lsst/skymap/tractInfo.py:TractInfo.findPatchList", "python/lsst/skymap/tractInfo.py:TractInfo._minimumBoundingBox", "python/lsst/skymap/baseSkyMap.py:BaseSkyMap.findTractPatchList"]}
{"id": "C95", "title": "How patches overlap, and what the border changes", "statement": "The outer boxes of patches i and j of a tract share a pixel exactly if on each axis |i - j| times the inner dimension is smaller than the inner dimension plus twice the border, for both builders. A pixel of a patch's inner box is in no other patch's outer box exactly if it is at least a border away from every side that is not an edge of the tract. If twice the border is at most the inner dimensions, a pixel is in at most four patches, two by two neighbours. A larger border gives the same tract, patches with the same indices and inner boxes whose outer boxes contain the previous ones, and findPatchList lists at least the same patches.", "quantifier": "every tract, builder (legacy or cells) with patches of positive size and a border that is not negative, every pair of patches, pixel and coordinate list", "why_tests_cant": "Tests compare neighbouring patches of sampled tracts; duplicates in the overlaps are what the inner regions and the border are for, and the claim is about all pixels, pairs and borders", "anchors": ["python/lsst/skymap/tractBuilder.py:LegacyTractBuilder.getPatchInfo", "python/lsst/skymap/tractBuilder.py:CellTractBuilder.getPatchInfo", "python/lsst/skymap/tractInfo.py:TractInfo.findPatchList"]}
