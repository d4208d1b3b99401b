{
 "claims": [
  {
   "property": "C01",
   "status": "proved",
   "theorems": [
    "Skymap.C01_setupPatches",
    "Skymap.C01_tract_bbox",
    "Skymap.C01_tract_minimal",
    "Skymap.C01_zero_dimension"
   ],
   "note": "For any requested box and any positive patch dimensions; lsst.geom.Box2I is modelled with unbounded integers."
  },
  {
   "property": "C02",
   "status": "proved",
   "theorems": [
    "Skymap.C02_tiling",
    "Skymap.C02_inner_in_tract"
   ],
   "note": "For every way of sizing the tract and both builders."
  },
  {
   "property": "C03",
   "status": "proved",
   "theorems": [
    "Skymap.C03_legacy_outer",
    "Skymap.C03_negative_border"
   ],
   "note": ""
  },
  {
   "property": "C04",
   "status": "proved",
   "theorems": [
    "Skymap.C04_cells_outer"
   ],
   "note": ""
  },
  {
   "property": "C05",
   "status": "proved",
   "theorems": [
    "Skymap.C05_seq_of_pair",
    "Skymap.C05_pair_of_seq",
    "Skymap.C05_distinct"
   ],
   "note": ""
  },
  {
   "property": "C06",
   "status": "proved",
   "theorems": [
    "Skymap.C06_by_pair",
    "Skymap.C06_by_number",
    "Skymap.C06_bad_sequence"
   ],
   "note": "Float indices: C89. A tract without patches raises ZeroDivisionError for integer indices."
  },
  {
   "property": "C07",
   "status": "proved",
   "theorems": [
    "Skymap.C07_iteration"
   ],
   "note": "Iteration with a fixed builder state (no other tract built between two yields); see C20."
  },
  {
   "property": "C08",
   "status": "proved",
   "theorems": [
    "Skymap.C08_findPatch",
    "Skymap.C08_findPatch_lookupError"
   ],
   "note": ""
  },
  {
   "property": "C09",
   "status": "proved",
   "theorems": [
    "Skymap.C09_findPatchList_complete",
    "Skymap.C09_listed_coordinate"
   ],
   "note": ""
  },
  {
   "property": "C10",
   "status": "proved",
   "theorems": [
    "Skymap.C10_findPatchList_exact"
   ],
   "note": ""
  },
  {
   "property": "C11",
   "status": "proved",
   "theorems": [
    "Skymap.C11_contains_iff_findPatch",
    "Skymap.C11_findPatch_in_list"
   ],
   "note": ""
  },
  {
   "property": "C12",
   "status": "proved",
   "theorems": [
    "Skymap.C12_wcs_shift",
    "Skymap.C12_covers_sample_points",
    "Skymap.C12_not_too_large",
    "Skymap.C12_sample_points"
   ],
   "note": ""
  },
  {
   "property": "C13",
   "status": "proved",
   "theorems": [
    "Skymap.C13_explicit_vertices",
    "Skymap.C13_input_wcs"
   ],
   "note": ""
  },
  {
   "property": "C14",
   "status": "proved",
   "theorems": [
    "Skymap.C14_cells_tile",
    "Skymap.C14_central_cells_inside",
    "Skymap.C14_central_cells_tile",
    "Skymap.C14_same_or_disjoint",
    "Skymap.C14_shared_grid"
   ],
   "note": "Cell configurations with positive cell size and cell count and non-negative borders."
  },
  {
   "property": "C15",
   "status": "proved",
   "theorems": [
    "Skymap.C15_outer_is_union",
    "Skymap.C15_cell_outer",
    "Skymap.C15_nonsquare_fails"
   ],
   "note": "For validated (square) configurations; C15_nonsquare_fails shows that the constructor accepts non-square cells, for which the property is false."
  },
  {
   "property": "C16",
   "status": "proved",
   "theorems": [
    "Skymap.C16_by_pair",
    "Skymap.C16_by_number",
    "Skymap.C16_index_inverse",
    "Skymap.C16_iteration",
    "Skymap.C16_no_cells"
   ],
   "note": "Float indices: C89."
  },
  {
   "property": "C17",
   "status": "proved",
   "theorems": [
    "Skymap.C17_cell_eq",
    "Skymap.C17_patch_eq",
    "Skymap.C17_equal_patches_equal_cells"
   ],
   "note": "Sensible builders of either class (SaneBuilder)."
  },
  {
   "property": "C18",
   "status": "proved",
   "theorems": [
    "Skymap.C18_out_of_range",
    "Skymap.C18_permanent",
    "Skymap.C18_failure_changes_nothing",
    "Skymap.C18_generated_once",
    "Skymap.C18_iteration",
    "Skymap.C18_methods_only_access"
   ],
   "note": ""
  },
  {
   "property": "C19",
   "status": "proved",
   "theorems": [
    "Skymap.C19_history_independent"
   ],
   "note": ""
  },
  {
   "property": "C20",
   "status": "partial",
   "theorems": [
    "Skymap.C20_uniform_partial",
    "Skymap.C20_last_tract_wins",
    "Skymap.C20_fails_unequal_radii",
    "Skymap.C20_false",
    "Skymap.C20_eager_last_tract_wins"
   ],
   "note": "The property as stated is false of the code (C20_false, C20_fails_unequal_radii: DiscreteSkyMap with unequal radii; C20_last_tract_wins says what happens instead). Proved: it holds for every sky map all of whose tracts have the same number of patches (C20_uniform_partial)."
  },
  {
   "property": "C21",
   "status": "proved",
   "theorems": [
    "Skymap.C21_validate",
    "Skymap.C21_tracts",
    "Skymap.C21_ids"
   ],
   "note": "The TAN/STG projection and SpherePoint are library parameters."
  },
  {
   "property": "C22",
   "status": "proved",
   "theorems": [
    "Skymap.C22_nearest",
    "Skymap.C22_errors",
    "Skymap.C22_total"
   ],
   "note": "Separations are values of a linearly ordered field (no NaN)."
  },
  {
   "property": "C23",
   "status": "proved",
   "theorems": [
    "Skymap.C23_elementwise"
   ],
   "note": "Arrays of different lengths are truncated by zip, as in the code."
  },
  {
   "property": "C24",
   "status": "proved",
   "theorems": [
    "Skymap.C24_exact",
    "Skymap.C24_exact_when_new",
    "Skymap.C24_second_call_fails"
   ],
   "note": "For sky maps with a stable builder (uniform tracts, Dodeca, Equat) after any history, and for every caching sky map whose tracts have not been accessed; C24_second_call_fails shows that the hypothesis is needed."
  },
  {
   "property": "C25",
   "status": "proved",
   "theorems": [
    "Skymap.C25_exact"
   ],
   "note": "For sky maps with a stable builder."
  },
  {
   "property": "C26",
   "status": "proved",
   "theorems": [
    "Skymap.Rings.C26_bijection",
    "Skymap.Rings.C26_index"
   ],
   "note": "For every list of positive counts, hence also those computed with rounding."
  },
  {
   "property": "C27",
   "status": "proved",
   "theorems": [
    "Skymap.Rings.C27_partition",
    "Skymap.Rings.C27_findTract"
   ],
   "note": "Exact arithmetic (real numbers, true pi and cosine); with rounding the partition holds up to 2^-44 radians: C55_rounding."
  },
  {
   "property": "C28",
   "status": "proved",
   "theorems": [
    "Skymap.Rings.C28_rounding",
    "Skymap.Rings.C28_rounding_distinct",
    "Skymap.Rings.C28_center",
    "Skymap.Rings.C28_distinct"
   ],
   "note": "Exact arithmetic (C28_center, C28_distinct) and rounding (C28_rounding, C28_rounding_distinct; the assumptions are shown for rounding to 53 bits). SpherePoint wraps longitudes to [0, 2 pi)."
  },
  {
   "property": "C29",
   "status": "proved",
   "theorems": [
    "Skymap.Rings.C29_centers",
    "Skymap.Rings.C29_quirk",
    "Skymap.Rings.C29_one_ring",
    "Skymap.Rings.C29_tracts",
    "Skymap.Rings.C29_find",
    "Skymap.Rings.C29_rounding_same",
    "Skymap.Rings.C29_rounding_repeat",
    "Skymap.Rings.C29_rounding_find"
   ],
   "note": "Exact arithmetic, and with rounded arithmetic (Props/RingsV0Rounding.lean) the correspondence of indices, centres, inner regions and look-ups of the two versions."
  },
  {
   "property": "C30",
   "status": "proved",
   "theorems": [
    "Skymap.Rings.C30_array",
    "Skymap.Rings.C30_degrees",
    "Skymap.Rings.C30_scalar",
    "Skymap.Rings.C30_lengths",
    "Skymap.Rings.C30_any_ra",
    "Skymap.Rings.C30_id"
   ],
   "note": "For every rounding function satisfying FloatArith.Ieee (shown to hold of round-to-nearest with 53 bits) when ra is in [0, 2 pi), and for any ra in exact arithmetic; numRings up to 2^31, the most the SHA1 can encode."
  },
  {
   "property": "C31",
   "status": "proved",
   "theorems": [
    "Skymap.Rings.C31_sound",
    "Skymap.Rings.C31_primary",
    "Skymap.Rings.C31_caps",
    "Skymap.Rings.C31_exact",
    "Skymap.Rings.C31_v0_duplicate",
    "Skymap.Rings.C31_total"
   ],
   "note": "For every rounding function satisfying FloatArith.Ieee, from every reachable state; numRings up to 2^31."
  },
  {
   "property": "C32",
   "status": "proved",
   "theorems": [
    "Skymap.Rings.C32_rounding",
    "Skymap.Rings.C32_width",
    "Skymap.Rings.C32_counts",
    "Skymap.Rings.C32_fails_one_ring"
   ],
   "note": "For two rings or more; C32_fails_one_ring proves that a single ring is an exception. C32_rounding: with rounding the width exceeds the ring height by at most 2^-42."
  },
  {
   "property": "C33",
   "status": "proved",
   "theorems": [
    "Skymap.Rings.C33_sound",
    "Skymap.Rings.C33_exact",
    "Skymap.Rings.C33_subset"
   ],
   "note": "As C31; C33_sound without, C33_exact and C33_subset with the stable-builder hypothesis."
  },
  {
   "property": "C34",
   "status": "proved",
   "theorems": [
    "Skymap.Rings.C34_total"
   ],
   "note": "For every rounding function satisfying FloatArith.Ieee; overflow is not modelled; numRings up to 2^31."
  },
  {
   "property": "C35",
   "status": "proved",
   "theorems": [
    "Skymap.Equat.C35_tracts",
    "Skymap.Equat.C35_partition",
    "Skymap.Equat.C35_findTract",
    "Skymap.Equat.C35_poles",
    "Skymap.Equat.C35_builds"
   ],
   "note": "Exact real arithmetic; ops.separation is the great-circle distance. At the poles findTract returns tract 0 (C35_poles)."
  },
  {
   "property": "C36",
   "status": "proved",
   "theorems": [
    "Skymap.Dodeca.C36_getFaceInd",
    "Skymap.DodecaSkyMap.C36_tracts",
    "Skymap.DodecaSkyMap.C36_findTract",
    "Skymap.DodecaSkyMap.C36_builds"
   ],
   "note": "Exact real arithmetic (numpy.round modelled exactly as rounding of real numbers); the separation of positions is the great circle distance; 0 < tiny <= 1/10 for the smallest positive float."
  },
  {
   "property": "C37",
   "status": "proved",
   "theorems": [
    "Skymap.Dodeca.C37_rotation_matrix",
    "Skymap.Dodeca.C37_transform",
    "Skymap.Dodeca.C37_transform_negative",
    "Skymap.Dodeca.C37_fails_negative",
    "Skymap.Dodeca.C37_regular",
    "Skymap.Dodeca.C37_faces_on_poles",
    "Skymap.Dodeca.C37_vertices_on_poles",
    "Skymap.Dodeca.C37_faces_sorted",
    "Skymap.Dodeca.C37_getVertices"
   ],
   "note": "Exact real arithmetic. Set iteration order is a parameter; the vertex on RA 180 degrees needs the ascending order that CPython uses for small integers. vec1NegativeX does not do what it promises for general vectors: C37_transform_negative says exactly when it does."
  },
  {
   "property": "C38",
   "status": "proved",
   "theorems": [
    "Skymap.C38_message_injective",
    "Skymap.C38_equal_of_same",
    "Skymap.C38_same_of_equal",
    "Skymap.C38_ne_and_hash"
   ],
   "note": "Message injectivity is proved for the exact byte layout; equality of sky maps is equality of SHA-1 values, so the converse direction is 'or a collision'. SHA-1 is an arbitrary function."
  },
  {
   "property": "C39",
   "status": "partial",
   "theorems": [
    "Skymap.AllMaps.C39_same_tracts_partial",
    "Skymap.AllMaps.C39_fails_rings"
   ],
   "note": "Proved for the classes of /repo (Model/AllMaps.lean), at any point of two histories, unless SHA-1 has a collision: sky maps that compare equal have the same tracts, if they are not rings maps of different versions (C39_same_tracts_partial). In that remaining case the property is false: C39_fails_rings."
  },
  {
   "property": "C40",
   "status": "proved",
   "theorems": [
    "Skymap.C40_pickle_roundtrip",
    "Skymap.C40_version_check"
   ],
   "note": "Includes the version check of Dodeca and Equat (C40_version_check). The classes' tract lists are an arbitrary function of class, configuration and version."
  },
  {
   "property": "C41",
   "status": "proved",
   "theorems": [
    "Skymap.C41_hash_never_changes",
    "Skymap.C41_equality_never_changes"
   ],
   "note": ""
  },
  {
   "property": "C42",
   "status": "partial",
   "theorems": [
    "Skymap.C42_unpack_pack_iff_partial",
    "Skymap.C42_positional_partial",
    "Skymap.C42_default",
    "Skymap.C42_fails_for_reordered_bands",
    "Skymap.C42_fails_for_negative_patch",
    "Skymap.C42_fails_for_dropped_band"
   ],
   "note": "The property as stated is false of the code for band mappings that do not number bands by position, for negative tract/patch (not rejected by pack), and for explicit dimensions with band and n_bands=0 (C42_fails_*). Proved: the exact condition under which it holds (C42_unpack_pack_iff_partial), which positional mappings such as the default one satisfy (C42_positional_partial, C42_default)."
  },
  {
   "property": "C43",
   "status": "proved",
   "theorems": [
    "Skymap.C43_injective"
   ],
   "note": ""
  },
  {
   "property": "C44",
   "status": "proved",
   "theorems": [
    "Skymap.C44_fits",
    "Skymap.C44_last"
   ],
   "note": ""
  },
  {
   "property": "C45",
   "status": "proved",
   "theorems": [
    "Skymap.C45_rejects",
    "Skymap.C45_dimensions",
    "Skymap.C45_defaults"
   ],
   "note": ""
  },
  {
   "property": "C46",
   "status": "proved",
   "theorems": [
    "Skymap.C46_pack_unpack"
   ],
   "note": ""
  },
  {
   "property": "C47",
   "status": "proved",
   "theorems": [
    "Skymap.C47_atomic"
   ],
   "note": "For any fault schedule of the butler, at every call and at the commit. The butler is a model (four tables), as it is not part of the repository. What a registration that returns has stored is C49_records."
  },
  {
   "property": "C48",
   "status": "proved",
   "theorems": [
    "Skymap.C48_never_overwrites",
    "Skymap.C48_record_determined",
    "Skymap.C48_idempotent",
    "Skymap.C48_unique_keys",
    "Skymap.C48_conflict",
    "Skymap.C48_sound"
   ],
   "note": "Over all sequences of registrations of any sky maps, successful or not."
  },
  {
   "property": "C49",
   "status": "proved",
   "theorems": [
    "Skymap.C49_records",
    "Skymap.C49_exactly_once",
    "Skymap.C49_succeeds",
    "Skymap.Ex.C49_fails_unequal_radii"
   ],
   "note": "Stated for sky maps with equal numbers of patches, as the property is; C49_fails_unequal_radii shows that it is false otherwise."
  },
  {
   "property": "C50",
   "status": "proved",
   "theorems": [
    "Skymap.C50_in_bounds",
    "Skymap.C50_packs",
    "Skymap.C50_distinct"
   ],
   "note": "Over all sequences of registrations from an empty registry, also with unequal numbers of patches."
  },
  {
   "property": "C51",
   "status": "proved",
   "theorems": [
    "Skymap.C51_last_assignment",
    "Skymap.C51_effect",
    "Skymap.C51_frozen"
   ],
   "note": "pex_config's own type checks are not modelled."
  },
  {
   "property": "C52",
   "status": "proved",
   "theorems": [
    "Skymap.C52_patch_inner",
    "Skymap.C52_adjacent_patches",
    "Skymap.C52_patch_outer",
    "Skymap.C52_tract",
    "Skymap.C52_cell_inner",
    "Skymap.C52_adjacent_cells"
   ],
   "note": "Positive patch dimensions and non-negative border; polygons are lists of corners; exact arithmetic."
  },
  {
   "property": "C53",
   "status": "proved",
   "theorems": [
    "Skymap.C53_inverse",
    "Skymap.C53_number_of_tracts",
    "Skymap.C53_tract_args",
    "Skymap.C53_findTract",
    "Skymap.C53_findTract_center"
   ],
   "note": "Exact arithmetic; hpgeom is a parameter with stated assumptions (HpGeom.Ok)."
  },
  {
   "property": "C54",
   "status": "proved",
   "theorems": [
    "Skymap.C54_coordFromVec",
    "Skymap.C54_total"
   ],
   "note": "The threshold and SpherePoint(Vector3d) are parameters."
  },
  {
   "property": "C55",
   "status": "proved",
   "theorems": [
    "Skymap.Rings.C55_covers",
    "Skymap.Rings.C55_disjoint",
    "Skymap.Rings.C55_rounding",
    "Skymap.Rings.C55_total"
   ],
   "note": "sphgeom.Box modelled as a closed box; covering and disjointness in exact arithmetic, and approximately with rounding (C55_rounding, C55_total)."
  },
  {
   "property": "C56",
   "status": "proved",
   "theorems": [
    "Skymap.WcsFactory.C56_projection_length",
    "Skymap.WcsFactory.C56_bearing",
    "Skymap.WcsFactory.C56_pixel_roundtrip",
    "Skymap.WcsFactory.C56_sky_roundtrip"
   ],
   "note": "TAN, STG and CEA, makeCdMatrix and makeSkyWcs are modelled from the documentation of their libraries; CEA round trips at crVal latitude 0 and without rotation, the only way the code uses it by default."
  },
  {
   "property": "C57",
   "status": "proved",
   "theorems": [
    "Skymap.C57_covers_rotated",
    "Skymap.C57_covers",
    "Skymap.C57_covers_square",
    "Skymap.C57_sharp",
    "Skymap.C57_rotation_gap",
    "Skymap.C57_discrete"
   ],
   "note": "C57_sharp and C57_rotation_gap show that the radius cannot be increased and that rotation matters."
  },
  {
   "property": "C58",
   "status": "proved",
   "theorems": [
    "Skymap.Rings.C58_covers",
    "Skymap.Rings.C58_total",
    "Skymap.Rings.C58_gap",
    "Skymap.Rings.C58_rounding"
   ],
   "note": "Exact arithmetic, and C58_rounding in double precision (any rounding within the IEEE error bounds, up to 2^31 rings, overlap larger by 1e-9 degrees). C58_gap shows that a smaller overlap is not enough for a common configuration (120 rings, one arc minute); C58_gap is for TAN."
  },
  {
   "property": "C59",
   "status": "proved",
   "theorems": [
    "Skymap.Equat.C59_contains",
    "Skymap.Equat.C59_findTract",
    "Skymap.Equat.C59_builds",
    "Skymap.Equat.C59_single"
   ],
   "note": "Exact arithmetic. C59_single: the failing case numTracts = 1."
  },
  {
   "property": "C60",
   "status": "proved",
   "theorems": [
    "Skymap.DodecaSkyMap.C60_inner",
    "Skymap.DodecaSkyMap.C60_findTract",
    "Skymap.DodecaSkyMap.C60_builds",
    "Skymap.DodecaSkyMap.C60_no_overlap_gap"
   ],
   "note": "Exact arithmetic on the sphere; the rounding of the Box2D limits is abstract (any FloatEnv that is Ok). STG overlaps below 3 degrees are not decided except 0."
  },
  {
   "property": "C61",
   "status": "proved",
   "theorems": [
    "Skymap.C61_margin",
    "Skymap.C61_hull",
    "Skymap.C61_dodeca",
    "Skymap.C61_healpix"
   ],
   "note": "C61_hull is the general statement, C61_dodeca and C61_healpix apply it to the sky maps that make such tracts, C61_margin bounds the margin."
  },
  {
   "property": "C62",
   "status": "proved",
   "theorems": [
    "Skymap.Rings.C62_rounding",
    "Skymap.Rings.C62_same_size",
    "Skymap.Rings.C62_history",
    "Skymap.Rings.C62_findPatch",
    "Skymap.C62_discrete_same_size",
    "Skymap.C62_discrete_history",
    "Skymap.C62_discrete_findPatch",
    "Skymap.Equat.C62_same_size",
    "Skymap.Equat.C62_findPatch"
   ],
   "note": "C62_same_size and C62_history hold for any rounding in rings sky maps; C62_findPatch for exact arithmetic with explicit size bounds (below 2^53 pixels). Rings: also in double precision (C62_rounding)."
  },
  {
   "property": "C63",
   "status": "proved",
   "theorems": [
    "Skymap.Rings.C63_registers",
    "Skymap.C63_discrete_registers",
    "Skymap.Equat.C63_registers",
    "Skymap.Rings.C63_rounding"
   ],
   "note": "The hash of the sky map is an arbitrary function of the bytes; that it differs from the hashes already there is a hypothesis. Rings: also in double precision (C63_rounding)."
  },
  {
   "property": "C64",
   "status": "proved",
   "theorems": [
    "Skymap.C64_tract",
    "Skymap.C64_patch",
    "Skymap.C64_cell",
    "Skymap.C64_contains",
    "Skymap.C64_pixel",
    "Skymap.C64_findPatch",
    "Skymap.C64_tile",
    "Skymap.C64_edges",
    "Skymap.Rings.C64_registered"
   ],
   "note": "A polygon is the intersection of all hemispheres that contain its corners (Spec/Polygon.lean); lsst.sphgeom's ConvexPolygon.contains is trusted to mean this. Exact arithmetic."
  },
  {
   "property": "C65",
   "status": "proved",
   "theorems": [
    "Skymap.C65_stg_sized",
    "Skymap.DodecaSkyMap.C65_covers",
    "Skymap.Rings.C65_registered",
    "Skymap.Rings.C65_rounding",
    "Skymap.C65_stg_tract",
    "Skymap.C65_stg_patch",
    "Skymap.C65_stg_gap"
   ],
   "note": "A polygon is the intersection of all hemispheres that contain its corners (Spec/Polygon.lean); lsst.sphgeom's ConvexPolygon.contains is trusted to mean this. Exact arithmetic. The factor 12 is sufficient, not necessary. Registered rings sky maps also in double precision (C65_rounding)."
  },
  {
   "property": "C66",
   "status": "proved",
   "theorems": [
    "Skymap.Equat.C66_covers",
    "Skymap.Equat.C66_gap",
    "Skymap.Equat.C66_registered",
    "Skymap.C66_polygon",
    "Skymap.C66_tract",
    "Skymap.C66_patch",
    "Skymap.C66_tract_gap",
    "Skymap.C66_patch_gap",
    "Skymap.C66_tract_gap_south",
    "Skymap.C66_patch_gap_south"
   ],
   "note": "A polygon is the intersection of all hemispheres that contain its corners (Spec/Polygon.lean); lsst.sphgeom's ConvexPolygon.contains is trusted to mean this. Exact arithmetic. The gap theorems are for tracts, patches and whole sky maps on one side of the equator. The factor 8 is sufficient, not necessary."
  },
  {
   "property": "C67",
   "status": "proved",
   "theorems": [
    "Skymap.Threads.C67_sky_map_calls",
    "Skymap.Threads.C67_patch_calls",
    "Skymap.Threads.C67_warm",
    "Skymap.Threads.C67_sequential",
    "Skymap.Threads.C67_no_deadlock",
    "Skymap.Threads.Race.C67_identity_race",
    "Skymap.Threads.Race.C67_torn_builder",
    "Skymap.Threads.C67_rings",
    "Skymap.Threads.C67_healpix",
    "Skymap.Threads.C67_rings_sequential"
   ],
   "note": "Model/Threads.lean writes the methods again as sequences of atomic reads and writes; C67_sequential proves that they are the sequential methods when run alone. Assumed: a read or write of one attribute or list element is atomic and sequentially consistent (CPython), and library calls are thread-safe. The two race theorems are counterexamples on concrete sky maps."
  },
  {
   "property": "C68",
   "status": "proved",
   "theorems": [
    "Skymap.C68_newest",
    "Skymap.C68_getPatchInfo",
    "Skymap.C68_sequential",
    "Skymap.C68_findPatch",
    "Skymap.C68_iteration",
    "Skymap.C68_findPatchList",
    "Skymap.C68_iff"
   ],
   "note": "The exact form of C20, which is false as stated."
  },
  {
   "property": "C69",
   "status": "proved",
   "theorems": [
    "Skymap.C69_history",
    "Skymap.C69_added_band"
   ],
   "note": ""
  },
  {
   "property": "C70",
   "status": "proved",
   "theorems": [
    "Skymap.C70_faithful_iff",
    "Skymap.C70_unpack_range"
   ],
   "note": "The exact form of C42, which is false as stated for mappings not numbered by position."
  },
  {
   "property": "C71",
   "status": "proved",
   "theorems": [
    "Skymap.AllMaps.C71_same_tracts_iff",
    "Skymap.AllMaps.C71_rounding"
   ],
   "note": "The exact form of C39, which is false as stated. Exact and rounded arithmetic (C71_rounding)."
  },
  {
   "property": "C72",
   "status": "proved",
   "theorems": [
    "Skymap.Rings.C72_complete",
    "Skymap.Rings.C72_patch_list",
    "Skymap.Rings.C72_total",
    "Skymap.Rings.C72_gap",
    "Skymap.Rings.C72_complete_rounding",
    "Skymap.Rings.C72_patch_list_rounding",
    "Skymap.Rings.C72_total_rounding"
   ],
   "note": "Exact arithmetic, and C72_complete_rounding, C72_patch_list_rounding and C72_total_rounding in double precision (any rounding within the IEEE error bounds, up to 2^31 rings, half a size of at most 0.578 of the height of a ring). C31 describes the answer for all overlaps; this is when that is everything. C72_gap, the converse, is for exact arithmetic."
  },
  {
   "property": "C73",
   "status": "proved",
   "theorems": [
    "Skymap.C73_log_caching",
    "Skymap.C73_history",
    "Skymap.C73_log_eager"
   ],
   "note": "The text of a position (three decimals of a degree) is a parameter of the model."
  },
  {
   "property": "C74",
   "status": "proved",
   "theorems": [
    "Skymap.C74_tracts_caching",
    "Skymap.C74_tracts_eager",
    "Skymap.C74_one_answer",
    "Skymap.C74_one_patch_answer",
    "Skymap.CachingSkyMap.C74_patches_caching",
    "Skymap.CachingSkyMap.C74_patches_uniform",
    "Skymap.C74_patches_eager",
    "Skymap.C74_fails_unequal"
   ],
   "note": "Removes the simplification of C07 and C68 that an iteration runs in one go."
  },
  {
   "property": "C75",
   "status": "proved",
   "theorems": [
    "Skymap.C75_dodeca",
    "Skymap.C75_equat",
    "Skymap.C75_rings",
    "Skymap.C75_discrete",
    "Skymap.C75_rings_rounding",
    "Skymap.DodecaSkyMap.C75_dodeca_patches",
    "Skymap.C75_healpix"
   ],
   "note": "Exact geometry; configuration values are the doubles. The rings sky map also in double precision (C75_rings_rounding, 30 rings or more). HealpixSkyMap (C75_healpix): hpgeom is a parameter, assumed to map every position to a pixel, to give each pixel's centre back, and to put the corners of a pixel at most 90 degrees from its centre; containment and registration are not stated for it."
  },
  {
   "property": "C76",
   "status": "proved",
   "theorems": [
    "Skymap.C76_new",
    "Skymap.C76_size",
    "Skymap.C76_getPatchInfo",
    "Skymap.C76_getCellInfo",
    "Skymap.C76_contains",
    "Skymap.C76_findPatch",
    "Skymap.C76_findPatchList",
    "Skymap.C76_new_sound",
    "Skymap.C76_getPatchInfo_sound",
    "Skymap.C76_getCellInfo_sound",
    "Skymap.C76_findPatchList_sound",
    "Skymap.C76_explicit",
    "Skymap.C76_dodeca"
   ],
   "note": "The checks of lsst.geom are modelled from its documentation: a number that does not fit raises. findPatchList with a position so near the horizon of a TAN projection that its pixel does not fit is outside the second part (it raises OverflowError in the model)."
  },
  {
   "property": "C77",
   "status": "proved",
   "theorems": [
    "Skymap.Rings.C77_same",
    "Skymap.Rings.C77_sound",
    "Skymap.Rings.C77_overflow",
    "Skymap.Rings.C77_size"
   ],
   "note": "The storing rules are those of numpy 2 (a Python int that does not fit raises OverflowError; older versions warn and wrap)."
  },
  {
   "property": "C78",
   "status": "proved",
   "theorems": [
    "Skymap.Rings.C78_hole",
    "Skymap.Rings.C78_hole_find",
    "Skymap.Rings.C78_lsst_find",
    "Skymap.Rings.C78_covers",
    "Skymap.Rings.C78_grown",
    "Skymap.Rings.C78_lsst"
   ],
   "note": "Covering and findAllTracts are with any rounding of the arithmetic of ringsSkyMap.py (doubles included), and exact projections; the hole is in exact arithmetic."
  },
  {
   "property": "C79",
   "status": "proved",
   "theorems": [
    "Skymap.C79_healpix",
    "Skymap.C79_discrete",
    "Skymap.C79_rings",
    "Skymap.C79_equat",
    "Skymap.C79_dodeca"
   ],
   "note": "makeSkyWcs, hpgeom and the arithmetic are parameters (SkyLib)."
  },
  {
   "property": "C80",
   "status": "proved",
   "theorems": [
    "Skymap.DodecaSkyMap.C80_dodeca_region",
    "Skymap.DodecaSkyMap.C80_dodeca_find",
    "Skymap.DodecaSkyMap.C80_dodeca_edges",
    "Skymap.Equat.C80_equat_region",
    "Skymap.Equat.C80_equat_find",
    "Skymap.Equat.C80_equat_edges",
    "Skymap.Equat.C80_equat_gap",
    "Skymap.Equat.C80_equat_gap_south",
    "Skymap.Equat.C80_equat_few",
    "Skymap.C80_explicit",
    "Skymap.C80_explicit_contains",
    "Skymap.C80_discrete",
    "Skymap.C80_vertices_contains"
   ],
   "note": "Exact real arithmetic; lsst.sphgeom.ConvexPolygon of a list of vertices is modelled as the intersection of all half spaces that contain the vertices."
  },
  {
   "property": "C81",
   "status": "proved",
   "theorems": [
    "Skymap.C81_caching",
    "Skymap.C81_caching_tuples",
    "Skymap.C81_eager",
    "Skymap.C81_patch_dims",
    "Skymap.C81_vertices",
    "Skymap.C81_objects_caching",
    "Skymap.C81_objects_eager",
    "Skymap.C81_cells",
    "Skymap.C81_healpix",
    "Skymap.C81_dodeca",
    "Skymap.C81_equat"
   ],
   "note": "Requests are skyMap[k], and on tract k: getBBox, getVertexList, getPatchInnerDimensions, getPatchInfo; methods that only read (findTract, findPatch, contains, ...) are functions of what `skyMap[k]` answers and are modelled elsewhere. numpy views returned by dodecahedron.Dodecahedron methods are not in this model."
  },
  {
   "property": "C82",
   "status": "proved",
   "theorems": [
    "Skymap.C82_sequential",
    "Skymap.C82_linearizable",
    "Skymap.C82_sound",
    "Skymap.C82_one_winner",
    "Skymap.C82_same_sky_map",
    "Skymap.C82_whole",
    "Skymap.C82_no_deadlock",
    "Skymap.C82_terminates",
    "Skymap.C82_order"
   ],
   "note": "The database is not part of /repo. It is assumed that a statement sees what was committed before it and what its own transaction inserted, that a statement which inserts a key that another open transaction has inserted waits for the end of that transaction, that registerRun and registerDatasetType are transactions of their own, that a process that vanishes has its transaction rolled back, and that a commit either happens or fails. C82_sequential shows that the statements of one process, with no other in between, are the method modelled for C47-C50."
  },
  {
   "property": "C83",
   "status": "proved",
   "theorems": [
    "Skymap.DodecaSkyMap.C83_dodeca_finite",
    "Skymap.DodecaSkyMap.C83_dodeca",
    "Skymap.Rings.C83_finite",
    "Skymap.Rings.C83_point",
    "Skymap.Rings.C83_findTract",
    "Skymap.Rings.C83_findAllTracts",
    "Skymap.Rings.C83_array",
    "Skymap.Rings.C83_array_degrees",
    "Skymap.Rings.C83_x86",
    "Skymap.Rings.C83_agree",
    "Skymap.BaseSkyMap.C83_default_finite",
    "Skymap.BaseSkyMap.C83_default"
   ],
   "note": "Floats that are not finite are added to the model (XFloat); C83_finite shows that for finite coordinates these are the functions of the other properties. A cap means the declinations that the method assigns to a cap. That the separation from a NaN position is NaN is lsst.geom's."
  },
  {
   "property": "C84",
   "status": "proved",
   "theorems": [
    "Skymap.BaseSkyMap.C84_default",
    "Skymap.DodecaSkyMap.C84_dodeca_exact",
    "Skymap.DodecaSkyMap.C84_dodeca",
    "Skymap.DodecaSkyMap.C84_dodeca_contains",
    "Skymap.DodecaSkyMap.C84_dodeca_contains_stg",
    "Skymap.Equat.C84_equat"
   ],
   "note": "Only the comparison in the lookup is inexact here: the construction of the tracts and contains are those of C59, C60 and C61 over the reals. The bounds are far above the rounding errors of double precision."
  },
  {
   "property": "C85",
   "status": "proved",
   "theorems": [
    "Skymap.Threads.C85_sequential",
    "Skymap.Threads.C85_findTractPatchList",
    "Skymap.Threads.C85_findClosest",
    "Skymap.Threads.C85_warm",
    "Skymap.Threads.C85_no_deadlock",
    "Skymap.Threads.C85_calls",
    "Skymap.Threads.C85_rings",
    "Skymap.Threads.Race.C85_repeated_tract"
   ],
   "note": "Threads take turns between reads and writes of shared attributes, as in C67; the list being built is local to the search. Patches that are found belong to the tract they are listed with (the equality of the lists includes their bounding boxes)."
  },
  {
   "property": "C86",
   "status": "proved",
   "theorems": [
    "Skymap.C86_cell",
    "Skymap.C86_patch_str",
    "Skymap.C86_patch_text",
    "Skymap.C86_patch",
    "Skymap.C86_same_tract",
    "Skymap.C86_tract",
    "Skymap.C86_by_hand"
   ],
   "note": "The texts of lsst.geom boxes and extents are modelled after the sources of that package, which is not part of the repository; the text of the unit vector of a tract centre is a parameter. What repr calls numCellsPerPatchInner is the number of all cells of the patch in x, those of the border included; it still identifies the patch."
  },
  {
   "property": "C87",
   "status": "proved",
   "theorems": [
    "Skymap.PackerThreads.C87_changed",
    "Skymap.PackerThreads.C87_shared",
    "Skymap.PackerThreads.C87_undisturbed",
    "Skymap.PackerThreads.C87_single",
    "Skymap.PackerThreads.C87_race"
   ],
   "note": "As in C67 a single look-up in a dict, copying its keys, and a single read or write of an attribute are atomic (as in CPython); everything between may be interleaved. A change of the mapping is one step that gives it new contents."
  },
  {
   "property": "C88",
   "status": "proved",
   "theorems": [
    "Skymap.C88_refused",
    "Skymap.C88_dead",
    "Skymap.C88_one_bad_tract",
    "Skymap.C88_empty",
    "Skymap.C88_dead_findTract",
    "Skymap.SkyLib.C88_noPixels",
    "Skymap.SkyLib.C88_class_refused",
    "Skymap.SkyLib.C88_no_tracts",
    "Skymap.SkyLib.C88_lists",
    "Skymap.SkyLib.C88_surplus"
   ],
   "note": "Negative dimensions are left out (Box2I then may swap corners), and lists of fewer than two dimensions. That the sky maps without tracts are exactly these assumes IEEE arithmetic and at most 2^31 rings. Which exception is raised is stated only where one is named."
  },
  {
   "property": "C89",
   "status": "proved",
   "theorems": [
    "Skymap.C89_ints",
    "Skymap.C89_getPatchInfo_pair",
    "Skymap.C89_getPatchInfo",
    "Skymap.C89_getCellInfo",
    "Skymap.C89_conversions",
    "Skymap.C89_getItem"
   ],
   "note": "That lsst.geom.Point2I refuses Python floats is a fact about pybind11. Other number types (numpy.float32, Fraction, complex) are not modelled."
  },
  {
   "property": "C90",
   "status": "proved",
   "theorems": [
    "Skymap.DictWorld.C90_lookup",
    "Skymap.DictWorld.C90_equality",
    "Skymap.DictWorld.C90_others",
    "Skymap.DictWorld.C90_copies",
    "Skymap.DictWorld.C90_pickle"
   ],
   "note": "The dict is modelled from the documentation of Python (entries tried in the order of insertion); the other objects' __eq__ is assumed not to claim equality with sky maps. RingsSkyMaps of different versions are the same key (C39)."
  },
  {
   "property": "C91",
   "status": "proved",
   "theorems": [
    "Skymap.C91_tract",
    "Skymap.C91_reversed",
    "Skymap.C91_eager",
    "Skymap.C91_patch",
    "Skymap.C91_patch_of_other_tract",
    "Skymap.C91_cell",
    "Skymap.C91_no_cells",
    "Skymap.C91_fails_unequal"
   ],
   "note": "in and reversed are Python's: the classes define neither __contains__ nor __reversed__, so they go through __iter__, __eq__, __len__ and __getitem__, which are modelled. x in tract is for the tract that was built last or for tracts of one size; C91_fails_unequal shows the other case."
  },
  {
   "property": "C92",
   "status": "proved",
   "theorems": [
    "Skymap.C92_tract",
    "Skymap.C92_tract_exists",
    "Skymap.C92_patch",
    "Skymap.C92_iter",
    "Skymap.C92_findPatch",
    "Skymap.C92_findPatchList",
    "Skymap.C92_outer",
    "Skymap.C92_configs",
    "Skymap.C92_access",
    "Skymap.C92_findTract",
    "Skymap.C92_findTractPatchList",
    "Skymap.C92_rings",
    "Skymap.C92_eager"
   ],
   "note": "findClosestTractPatchList and RingsSkyMap.findTractPatchList, which compare lists of patches, are not compared here: patch equality looks at outer boxes."
  },
  {
   "property": "C93",
   "status": "proved",
   "theorems": [
    "Skymap.C93_tracts",
    "Skymap.C93_findTract",
    "Skymap.C93_patches",
    "Skymap.C93_patches_uniform",
    "Skymap.C93_packed",
    "Skymap.C93_packed_bands"
   ],
   "note": "The tract builder and the overlap are unchanged; for another builder see C92."
  },
  {
   "property": "C94",
   "status": "proved",
   "theorems": [
    "Skymap.C94_findPatchList",
    "Skymap.C94_unprojectable",
    "Skymap.C94_append",
    "Skymap.C94_findTractPatchList",
    "Skymap.C94_vertices",
    "Skymap.C94_fails_close"
   ],
   "note": "C94_fails_close shows that the proviso is needed: for two coordinates closer than the gap at the edge of a pixel the patches depend on the order."
  },
  {
   "property": "C95",
   "status": "proved",
   "theorems": [
    "Skymap.C95_share",
    "Skymap.C95_alone",
    "Skymap.C95_at_most_four",
    "Skymap.C95_larger_border"
   ],
   "note": "The last claim is for tracts with fewer than 2^53 pixels on a side."
  }
 ]
}