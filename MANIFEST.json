{
 "claims": [
  {
   "property": "C01",
   "status": "partial",
   "theorems": [
    "Tracer.Dict.C01_add_partial",
    "Tracer.Dict.C01_operands_unchanged",
    "Tracer.Dict.C01_add_defined",
    "Tracer.Dict.C01_underscore_fails",
    "Tracer.Dict.C01_returns_iff",
    "Tracer.Dict.C01_rays"
   ],
   "note": "Proved for every sum that returns, and that it returns when shapes agree and no property name is another one with an underscore in front; with such names the call raises (C01_underscore_fails). C01_returns_iff says exactly when the call returns: shared properties have the same leading dimension, and no property whose underscored name is also a shared property was created after it."
  },
  {
   "property": "C02",
   "status": "partial",
   "theorems": [
    "Tracer.Dict.C02_concatenate_partial",
    "Tracer.Dict.C02_missing_raises",
    "Tracer.Dict.C02_empty",
    "Tracer.Dict.C02_empty_shapes",
    "Tracer.Dict.C02_empty_neutral",
    "Tracer.Dict.C02_concatenate_defined",
    "Tracer.Dict.C02_returns_iff",
    "Tracer.Dict.C02_rays"
   ],
   "note": "Proved, except that the same underscore clash as in C01 makes the call raise. C02_returns_iff says exactly when the call returns."
  },
  {
   "property": "C03",
   "status": "proved",
   "theorems": [
    "Tracer.Dict.C03_inherit",
    "Tracer.Dict.C03_unchanged",
    "Tracer.Dict.C03_defined",
    "Tracer.Dict.C03_default",
    "Tracer.Dict.C03_rays",
    "Tracer.Dict.C03_reflective"
   ],
   "note": ""
  },
  {
   "property": "C04",
   "status": "proved",
   "theorems": [
    "Tracer.Dict.C04_delete_rays",
    "Tracer.Dict.C04_out_of_range",
    "Tracer.Dict.C04_partition",
    "Tracer.Dict.C04_selector_set",
    "Tracer.Dict.C04_rays"
   ],
   "note": ""
  },
  {
   "property": "C05",
   "status": "partial",
   "theorems": [
    "Tracer.Dict.C05_set",
    "Tracer.Dict.C05_set_selected_partial",
    "Tracer.Dict.C05_set_out_of_range",
    "Tracer.Dict.C05_get_selected",
    "Tracer.Dict.C05_has_property",
    "Tracer.Dict.C05_reachable_wf",
    "Tracer.Dict.C05_shared_fails",
    "Tracer.Dict.C05_set_selected_exact",
    "Tracer.Dict.C05_kept_iff"
   ],
   "note": "False for properties or bundles that share an array (C05_shared_fails: inherit with its default selector returns views); proved when the arrays are distinct. C05_set_selected_exact gives what every property of every bundle shows afterwards, and C05_kept_iff says exactly which ones keep their value."
  },
  {
   "property": "C06",
   "status": "proved",
   "theorems": [
    "Tracer.C06_parents_valid"
   ],
   "note": ""
  },
  {
   "property": "C07",
   "status": "proved",
   "theorems": [
    "Tracer.C07_starts_on_parent",
    "Tracer.C07_starts_on_parent_perRay"
   ],
   "note": ""
  },
  {
   "property": "C08",
   "status": "proved",
   "theorems": [
    "Tracer.C08_nearest_iff",
    "Tracer.C08_all_miss",
    "Tracer.C08_trace_nearest"
   ],
   "note": ""
  },
  {
   "property": "C09",
   "status": "partial",
   "theorems": [
    "Tracer.C09_iff",
    "Tracer.C09_children",
    "Tracer.C09_trace_iff",
    "Tracer.C09_one_surface_partial",
    "Tracer.C09_counterexample"
   ],
   "note": "False when two surfaces tie exactly (C09_counterexample); proved when no tie. Exactly: one surface is marked iff no two tie for the least answer (C09_iff), and in a trace a ray has as many children as it has nearest surfaces (C09_children, C09_trace_iff). With random rays and flat surfaces it holds almost surely (C118_once)."
  },
  {
   "property": "C10",
   "status": "proved",
   "theorems": [
    "Tracer.C10_low_energy"
   ],
   "note": ""
  },
  {
   "property": "C11",
   "status": "proved",
   "theorems": [
    "Tracer.C11_iteration_limit",
    "Tracer.C11_no_iterations",
    "Tracer.C11_stops",
    "Tracer.C11_prefix"
   ],
   "note": ""
  },
  {
   "property": "C12",
   "status": "proved",
   "theorems": [
    "Tracer.C12_children_iff",
    "Tracer.C12_escape"
   ],
   "note": ""
  },
  {
   "property": "C13",
   "status": "proved",
   "theorems": [
    "Tracer.C13_source",
    "Tracer.C13_next_iteration",
    "Tracer.C13_claimed",
    "Tracer.C13_skipped"
   ],
   "note": ""
  },
  {
   "property": "C14",
   "status": "partial",
   "theorems": [
    "Tracer.C14_policies_partial",
    "Tracer.C14_flat_policies_partial",
    "Tracer.C14_refines_partial",
    "Tracer.C14_union_partial",
    "Tracer.C14_counterexample",
    "Tracer.C14_exact",
    "Tracer.C14_order",
    "Tracer.C14_flat_partial"
   ],
   "note": "The claim is false for rays that meet a surface at a parameter in (1e-10, 1e-6] (C14_counterexample). Proved for every trace: refinement of a recursion over generations (C14_exact) and independence of the order of the source (C14_order). Proved for every trace whose recorded rays start on a surface or avoid that window: refinement of a recursion over single rays, union of bundles. In scenes of flat mirrors only the source rays need to (C14_flat_partial)."
  },
  {
   "property": "C15",
   "status": "proved",
   "theorems": [
    "Tracer.C15_nonneg",
    "Tracer.C15_children",
    "Tracer.C15_total",
    "Tracer.C15_counterexample",
    "Tracer.C15_library_nonneg",
    "Tracer.C15_library_children",
    "Tracer.C15_all_children",
    "Tracer.C15_all_total",
    "Tracer.C15_default_children",
    "Tracer.C15_library_total",
    "Tracer.C15_default_total",
    "Tracer.C15_children_ties"
   ],
   "note": "The claim assumes that no two surfaces tie; without that it is false (C15_counterexample: energy is duplicated). C15_library_* and C15_default_* are about scenes of the components of the package, refracting and diffuse ones included, with any number of media; C15_all_* include hemispheres and cut spheres together with the package's other policies. C15_children and C15_total are about any surfaces that create no energy. Non-negativity is proved without the hypothesis on ties; with ties the children of a ray carry at most its energy times the number of surfaces that take it (C15_children_ties)."
  },
  {
   "property": "C16",
   "status": "proved",
   "theorems": [
    "Tracer.C16_tree_false",
    "Tracer.C16_no_iterations"
   ],
   "note": "With reps = 0 and tree=False the call raises (C16_no_iterations)."
  },
  {
   "property": "C17",
   "status": "partial",
   "theorems": [
    "Tracer.C17_ray_history_fails",
    "Tracer.C17_body_default_fails",
    "Tracer.C17_body_partial",
    "Tracer.C17_body_wrong"
   ],
   "note": "False: every call of ray_history raises (C17_ray_history_fails); the body is characterised instead."
  },
  {
   "property": "C18",
   "status": "proved",
   "theorems": [
    "Tracer.C18_ordered_parents",
    "Tracer.C18_ancestry",
    "Tracer.C18_follow"
   ],
   "note": ""
  },
  {
   "property": "C19",
   "status": "proved",
   "theorems": [
    "Tracer.C19_numbering",
    "Tracer.C19_numbering_inv",
    "Tracer.C19_objects",
    "Tracer.C19_surfaces",
    "Tracer.C19_complete",
    "Tracer.C19_add_surface",
    "Tracer.C19_add_object",
    "Tracer.C19_add_assembly",
    "Tracer.C19_tree"
   ],
   "note": ""
  },
  {
   "property": "C20",
   "status": "proved",
   "theorems": [
    "Tracer.C20_rejects",
    "Tracer.C20_shape"
   ],
   "note": ""
  },
  {
   "property": "C21",
   "status": "proved",
   "theorems": [
    "Tracer.C21_no_self_hit",
    "Tracer.C21_far_kept"
   ],
   "note": ""
  },
  {
   "property": "C22",
   "status": "proved",
   "theorems": [
    "Tracer.C22_calls",
    "Tracer.C22_transform_children",
    "Tracer.C22_construct",
    "Tracer.C22_set",
    "Tracer.C22_add_object",
    "Tracer.C22_add_assembly",
    "Tracer.C22_history"
   ],
   "note": ""
  },
  {
   "property": "C23",
   "status": "partial",
   "theorems": [
    "Tracer.C23_aim_fails",
    "Tracer.C23_assembly_partial",
    "Tracer.C23_object_partial",
    "Tracer.C23_repair",
    "Tracer.C23_counterexample",
    "Tracer.C23_assembly_iff",
    "Tracer.C23_object_iff",
    "Tracer.C23_surface_iff",
    "Tracer.C23_add_object_iff"
   ],
   "note": "False: moving a component below a parent that is not at the identity loses the parent (C23_counterexample). Proved: moves below ancestors composing to the identity, and that transform_children() of the root repairs every history; and exactly which moves and additions keep the frames right: for invertible transforms, those below assemblies composing to the identity (C23_assembly_iff, C23_object_iff, C23_surface_iff, C23_add_object_iff)."
  },
  {
   "property": "C24",
   "status": "partial",
   "theorems": [
    "Tracer.C24_set_location",
    "Tracer.C24_set_rotation",
    "Tracer.C24_set_transform",
    "Tracer.C24_transform_frame",
    "Tracer.C24_wrong_shape",
    "Tracer.C24_new",
    "Tracer.C24_one_component",
    "Tracer.C24_history_partial",
    "Tracer.C24_counterexample",
    "Tracer.C24_temp_follows",
    "Tracer.C24_location_iff",
    "Tracer.C24_rotation_iff"
   ],
   "note": "Proved for one component with any aliasing of arguments and for any number of components that share no 4x4 array; false otherwise (C24_counterexample). C24_location_iff and C24_rotation_iff say exactly when another component, sharing arrays in any way, stays in agreement with itself."
  },
  {
   "property": "C25",
   "status": "partial",
   "theorems": [
    "Tracer.C25_step_partial",
    "Tracer.C25_history_partial",
    "Tracer.C25_counterexample",
    "Tracer.C25_location_exact",
    "Tracer.C25_rotation_exact",
    "Tracer.C25_location_iff",
    "Tracer.C25_rotation_iff",
    "Tracer.C25_rebinding"
   ],
   "note": "False when components are given the same array (C25_counterexample). Proved for every program that does not share 4x4 arrays. C25_location_exact and C25_rotation_exact give what any other component shows, C25_location_iff and C25_rotation_iff say exactly when it is unaffected, and C25_rebinding that the other setters never affect it."
  },
  {
   "property": "C26",
   "status": "proved",
   "theorems": [
    "Tracer.C26_rotation",
    "Tracer.C26_turns",
    "Tracer.C26_additive",
    "Tracer.C26_coordinate_axes",
    "Tracer.C26_rigid",
    "Tracer.C26_generate"
   ],
   "note": ""
  },
  {
   "property": "C27",
   "status": "proved",
   "theorems": [
    "Tracer.C27_rotation_to_z",
    "Tracer.C27_poles",
    "Tracer.C27_list"
   ],
   "note": ""
  },
  {
   "property": "C28",
   "status": "proved",
   "theorems": [
    "Tracer.C28_flat",
    "Tracer.C28_rect",
    "Tracer.C28_round",
    "Tracer.C28_triangle",
    "Tracer.C28_sphere",
    "Tracer.C28_hemisphere",
    "Tracer.C28_cut_sphere",
    "Tracer.C28_paraboloid",
    "Tracer.C28_dish",
    "Tracer.C28_hexagonal_dish",
    "Tracer.C28_infinite_cylinder",
    "Tracer.C28_finite_cylinder"
   ],
   "note": ""
  },
  {
   "property": "C29",
   "status": "proved",
   "theorems": [
    "Tracer.C29_global_to_local",
    "Tracer.C29_mesh"
   ],
   "note": ""
  },
  {
   "property": "C30",
   "status": "proved",
   "theorems": [
    "Tracer.C30_flat"
   ],
   "note": ""
  },
  {
   "property": "C31",
   "status": "proved",
   "theorems": [
    "Tracer.C31_rect_plate",
    "Tracer.C31_constructor"
   ],
   "note": ""
  },
  {
   "property": "C32",
   "status": "proved",
   "theorems": [
    "Tracer.C32_round_plate",
    "Tracer.C32_constructor"
   ],
   "note": ""
  },
  {
   "property": "C33",
   "status": "proved",
   "theorems": [
    "Tracer.C33_triangle"
   ],
   "note": ""
  },
  {
   "property": "C34",
   "status": "proved",
   "theorems": [
    "Tracer.C34_sphere",
    "Tracer.C34_constructor"
   ],
   "note": ""
  },
  {
   "property": "C35",
   "status": "proved",
   "theorems": [
    "Tracer.C35_near_axis_counterexample",
    "Tracer.C35_infinite_cylinder",
    "Tracer.C35_finite_cylinder"
   ],
   "note": ""
  },
  {
   "property": "C36",
   "status": "proved",
   "theorems": [
    "Tracer.C36_paraboloid"
   ],
   "note": ""
  },
  {
   "property": "C37",
   "status": "proved",
   "theorems": [
    "Tracer.C37_dish",
    "Tracer.C37_focus",
    "Tracer.C37_concentrates"
   ],
   "note": "Rays within the planar tolerance of the axis direction but not along it are covered by C36 only (residual A t^2)."
  },
  {
   "property": "C38",
   "status": "proved",
   "theorems": [
    "Tracer.C38_hexagonal_dish",
    "Tracer.C38_concentrates"
   ],
   "note": "As C37."
  },
  {
   "property": "C39",
   "status": "partial",
   "theorems": [
    "Tracer.C39_hemisphere_partial",
    "Tracer.C39_cut_sphere_partial",
    "Tracer.C39_uncut",
    "Tracer.C39_single",
    "Tracer.C39_counterexample",
    "Tracer.C39_hemisphere_exact",
    "Tracer.C39_hemisphere_iff",
    "Tracer.C39_cut_sphere_exact",
    "Tracer.C39_cut_sphere_iff"
   ],
   "note": "False for bundles in which a ray keeping only its far crossing precedes one keeping only its near crossing (C39_counterexample); proved for all other bundles, single rays included. C39_hemisphere_exact and C39_cut_sphere_exact say what every ray of every bundle is answered, and the _iff theorems that these are exactly the bundles answered right."
  },
  {
   "property": "C40",
   "status": "proved",
   "theorems": [
    "Tracer.C40_flat",
    "Tracer.C40_sphere",
    "Tracer.C40_cylinder",
    "Tracer.C40_paraboloid",
    "Tracer.C40_dish",
    "Tracer.C40_finite_cylinder"
   ],
   "note": ""
  },
  {
   "property": "C41",
   "status": "partial",
   "theorems": [
    "Tracer.C41_sphere",
    "Tracer.C41_plane",
    "Tracer.C41_cylinder_counterexample",
    "Tracer.C41_cylinder_fails",
    "Tracer.C41_cylinder_partial",
    "Tracer.C41_cylinder_iff",
    "Tracer.C41_cylinder_location_iff"
   ],
   "note": "False for BoundaryCylinder, which answers only for exactly three points and drops the rotation and the location (C41_cylinder_counterexample, C41_cylinder_fails). Proved for BoundarySphere and BoundaryPlane, and for cylinders whose frame keeps the Z axis. C41_cylinder_iff says exactly which frames answer rightly: those that, applied twice, bring the Z axis onto itself."
  },
  {
   "property": "C42",
   "status": "partial",
   "theorems": [
    "Tracer.C42_iff",
    "Tracer.C42_partial",
    "Tracer.C42_counterexample",
    "Tracer.C42_moved_fails"
   ],
   "note": "False when the sphere centre is off the plane frame (C42_counterexample), and the call fails after transform_frame (C42_moved_fails). Proved for the remaining cases, with the exact condition (C42_iff)."
  },
  {
   "property": "C43",
   "status": "proved",
   "theorems": [
    "Tracer.C43_flat",
    "Tracer.C43_spheres",
    "Tracer.C43_quadrics",
    "Tracer.C43_trace",
    "Tracer.C43_no_attribute_error",
    "Tracer.C43_history",
    "Tracer.C43_shared_fails",
    "Tracer.C43_select_twice_fails",
    "Tracer.C43_normals_unselected",
    "Tracer.C43_points"
   ],
   "note": "For surfaces with managers of their own; C43_shared_fails shows the need."
  },
  {
   "property": "C44",
   "status": "proved",
   "theorems": [
    "Tracer.C44_mirrored",
    "Tracer.C44_unique",
    "Tracer.C44_isometry",
    "Tracer.C44_involution"
   ],
   "note": ""
  },
  {
   "property": "C45",
   "status": "proved",
   "theorems": [
    "Tracer.C45_snell",
    "Tracer.C45_sines",
    "Tracer.C45_unique",
    "Tracer.C45_equal",
    "Tracer.C45_reverse",
    "Tracer.C45_plate",
    "Tracer.C45_normal_sign"
   ],
   "note": ""
  },
  {
   "property": "C46",
   "status": "proved",
   "theorems": [
    "Tracer.C46_refracted_iff",
    "Tracer.C46_total_reflection",
    "Tracer.C46_denser",
    "Tracer.C46_list"
   ],
   "note": ""
  },
  {
   "property": "C47",
   "status": "proved",
   "theorems": [
    "Tracer.C47_defined_iff",
    "Tracer.C47_fraction",
    "Tracer.C47_transmits",
    "Tracer.C47_equal",
    "Tracer.C47_grazing",
    "Tracer.C47_critical",
    "Tracer.C47_normal",
    "Tracer.C47_brewster",
    "Tracer.C47_reversible"
   ],
   "note": ""
  },
  {
   "property": "C48",
   "status": "proved",
   "theorems": [
    "Tracer.C48_reflective",
    "Tracer.C48_answers"
   ],
   "note": ""
  },
  {
   "property": "C49",
   "status": "proved",
   "theorems": [
    "Tracer.C49_children",
    "Tracer.C49_energy",
    "Tracer.C49_answers",
    "Tracer.C49_errors"
   ],
   "note": "For rays of unit direction whose index is positive and whose reflectance is defined; an empty selection or an undefined reflectance is an error (C49_errors)."
  },
  {
   "property": "C50",
   "status": "proved",
   "theorems": [
    "Tracer.C50_toggle"
   ],
   "note": ""
  },
  {
   "property": "C51",
   "status": "partial",
   "theorems": [
    "Tracer.C51_history",
    "Tracer.C51_reset",
    "Tracer.C51_empty_calls_counterexample",
    "Tracer.C51_runs",
    "Tracer.C51_reflective",
    "Tracer.C51_balance",
    "Tracer.C51_lambertian",
    "Tracer.C51_exact",
    "Tracer.C51_raises_iff"
   ],
   "note": "get_all_hits raises when every recorded call was empty (C51_empty_calls_counterexample); proved otherwise. C51_exact says what it answers after every history and C51_raises_iff exactly when it raises."
  },
  {
   "property": "C52",
   "status": "proved",
   "theorems": [
    "Tracer.C52_one_sided"
   ],
   "note": ""
  },
  {
   "property": "C53",
   "status": "proved",
   "theorems": [
    "Tracer.C53_lambertian",
    "Tracer.C53_answers"
   ],
   "note": ""
  },
  {
   "property": "C54",
   "status": "partial",
   "theorems": [
    "Tracer.C54_counterexample",
    "Tracer.C54_partial"
   ],
   "note": "False: the last term d/(e - L) is dropped (C54_counterexample); the value computed is characterised."
  },
  {
   "property": "C55",
   "status": "proved",
   "theorems": [
    "Tracer.C55_cone",
    "Tracer.C55_distribution",
    "Tracer.C55_covers"
   ],
   "note": ""
  },
  {
   "property": "C56",
   "status": "proved",
   "theorems": [
    "Tracer.C56_disk",
    "Tracer.C56_power",
    "Tracer.C56_even"
   ],
   "note": ""
  },
  {
   "property": "C57",
   "status": "partial",
   "theorems": [
    "Tracer.C57_count_iff",
    "Tracer.C57_counterexample",
    "Tracer.C57_width_counterexample",
    "Tracer.C57_partial"
   ],
   "note": "False unless the number is a perfect square (C57_count_iff, C57_counterexample), and the width is never respected (C57_width_counterexample). Proved for perfect squares, with a square of twice the width."
  },
  {
   "property": "C58",
   "status": "proved",
   "theorems": [
    "Tracer.C58_walls",
    "Tracer.C58_inside",
    "Tracer.C58_dimensions"
   ],
   "note": ""
  },
  {
   "property": "C59",
   "status": "proved",
   "theorems": [
    "Tracer.C59_solar_vector",
    "Tracer.C59_initial",
    "Tracer.C59_aims"
   ],
   "note": "For a field that was not moved itself, as documented in C23."
  },
  {
   "property": "C60",
   "status": "partial",
   "theorems": [
    "Tracer.C60_surfaces",
    "Tracer.C60_partial",
    "Tracer.C60_index",
    "Tracer.C60_counterexample"
   ],
   "note": "False when a degenerate face precedes: C60_counterexample; C60_surfaces says what is built in every case, C60_index when it raises."
  },
  {
   "property": "C61",
   "status": "partial",
   "theorems": [
    "Tracer.C61_partial",
    "Tracer.C61_closed",
    "Tracer.C61_apex",
    "Tracer.C61_planar_front",
    "Tracer.C61_planar_back",
    "Tracer.C61_planar_back_fails",
    "Tracer.C61_too_small"
   ],
   "note": "Two curved faces: depth, common circles and closedness are proved (C61_partial, C61_closed, C61_apex). A planar front raises NameError (C61_planar_front) and a planar back makes the lens thicker than asked for (C61_planar_back, C61_planar_back_fails)."
  },
  {
   "property": "C62",
   "status": "partial",
   "theorems": [
    "Tracer.C62_partial",
    "Tracer.C62_fails",
    "Tracer.C62_trace"
   ],
   "note": "The focal length is the lensmaker value and the paraxial focus, as the limit of exactly refracted rays, is at -f + 2*pd (C62_partial). The engine, given the lens alone in an assembly, records exactly these rays in two iterations, and the ray that reaches the focus carries the share that two faces transmit at normal incidence (C62_trace). The documented place -f is wrong for every lens with two curved faces and positive depth (C62_fails)."
  },
  {
   "property": "C63",
   "status": "proved",
   "theorems": [
    "Tracer.C63_measures",
    "Tracer.C63_limit"
   ],
   "note": "At the limit of the documented range the function raises ZeroDivisionError (C63_limit)."
  },
  {
   "property": "C64",
   "status": "partial",
   "theorems": [
    "Tracer.C64_rect",
    "Tracer.C64_triangle",
    "Tracer.C64_sphere",
    "Tracer.C64_hemisphere_partial",
    "Tracer.C64_hemisphere_counterexample",
    "Tracer.C64_round_partial",
    "Tracer.C64_dish_partial",
    "Tracer.C64_cylinder_partial",
    "Tracer.C64_counterexample",
    "Tracer.C64_surface",
    "Tracer.C64_rect_covers",
    "Tracer.C64_round_covers",
    "Tracer.C64_dish_covers",
    "Tracer.C64_cylinder_covers",
    "Tracer.C64_sphere_covers",
    "Tracer.C64_hemisphere_covers",
    "Tracer.C64_triangle_covers"
   ],
   "note": "Exact for rectangles, triangles and spheres; for round plates, dishes and cylinders the exact condition under which the mesh stays in the aperture, with counterexamples. Coverage is proved for every mesh but that of CutSphereGM, which is the whole sphere's."
  },
  {
   "property": "C65",
   "status": "partial",
   "theorems": [
    "Tracer.C65_ordered_partial",
    "Tracer.C65_drawable",
    "Tracer.C65_trace_partial",
    "Tracer.C65_no_threshold",
    "Tracer.C65_trace_fails",
    "Tracer.C65_lines",
    "Tracer.C65_partial",
    "Tracer.C65_empty",
    "Tracer.C65_counterexample"
   ],
   "note": "C65_lines characterises what is drawn in every case; the claim holds when no ray is filtered, for traces with threshold 0 (C65_no_threshold) and whenever no weak but lit ray is recorded (C65_trace_partial); it fails for trees in general (C65_counterexample) and for a trace with the default settings of the window (C65_trace_fails)."
  },
  {
   "property": "C66",
   "status": "partial",
   "theorems": [
    "Tracer.C66_balance_partial",
    "Tracer.C66_mirror",
    "Tracer.C66_receiver",
    "Tracer.C66_refractive",
    "Tracer.C66_receivers_partial",
    "Tracer.C66_counterexample",
    "Tracer.C66_exact",
    "Tracer.C66_no_loss",
    "Tracer.C66_iff",
    "Tracer.C66_receivers_iff"
   ],
   "note": "Missing: ties, where energy is duplicated (C66_counterexample). Proved for all scenes in which no two surfaces are met at the same parameter by a ray of the trace; and with ties the exact surplus (C66_exact), that nothing is ever lost (C66_no_loss), and that the balance holds if and only if no ray with energy is taken by two surfaces (C66_iff, C66_receivers_iff). With random rays and flat surfaces ties have probability zero (C118)."
  },
  {
   "property": "C67",
   "status": "proved",
   "theorems": [
    "Tracer.C67_receiver",
    "Tracer.C67_get_all_hits",
    "Tracer.C67_readable",
    "Tracer.C67_mirrors",
    "Tracer.C67_policies",
    "Tracer.C67_flat",
    "Tracer.C67_specular"
   ],
   "note": ""
  },
  {
   "property": "C68",
   "status": "proved",
   "theorems": [
    "Tracer.C68_layout",
    "Tracer.C68_standard_minidish",
    "Tracer.C68_petal"
   ],
   "note": ""
  },
  {
   "property": "C69",
   "status": "proved",
   "theorems": [
    "Tracer.C69_positions",
    "Tracer.C69_distinct",
    "Tracer.C69_apart"
   ],
   "note": ""
  },
  {
   "property": "C70",
   "status": "proved",
   "theorems": [
    "Tracer.C70_motion",
    "Tracer.C70_reflective",
    "Tracer.C70_one_sided",
    "Tracer.C70_receiver",
    "Tracer.C70_policies",
    "Tracer.C70_refractive"
   ],
   "note": ""
  },
  {
   "property": "C71",
   "status": "proved",
   "theorems": [
    "Tracer.C71_flat",
    "Tracer.C71_policies",
    "Tracer.C71_scale",
    "Tracer.C71_reflective",
    "Tracer.C71_receiver",
    "Tracer.C71_refractive",
    "Tracer.C71_quadrics"
   ],
   "note": ""
  },
  {
   "property": "C72",
   "status": "proved",
   "theorems": [
    "Tracer.C72_media",
    "Tracer.C72_inherited",
    "Tracer.C72_irrelevant",
    "Tracer.C72_reflective",
    "Tracer.C72_receiver",
    "Tracer.C72_refractive"
   ],
   "note": "C72_media: scenes with any number of media."
  },
  {
   "property": "C73",
   "status": "proved",
   "theorems": [
    "Tracer.C73_watch",
    "Tracer.C73_reflective",
    "Tracer.C73_refractive"
   ],
   "note": ""
  },
  {
   "property": "C74",
   "status": "proved",
   "theorems": [
    "Tracer.C74_law",
    "Tracer.C74_invariant",
    "Tracer.C74_reflective",
    "Tracer.C74_one_sided",
    "Tracer.C74_receiver",
    "Tracer.C74_mirror_carries",
    "Tracer.C74_flat",
    "Tracer.C74_refractive",
    "Tracer.C74_refraction_carries",
    "Tracer.C74_quadrics",
    "Tracer.C74_lambertian",
    "Tracer.C74_unit",
    "Tracer.C74_border",
    "Tracer.C74_media",
    "Tracer.C74_normals",
    "Tracer.C74_obeys",
    "Tracer.C74_library"
   ],
   "note": "C74_media: scenes with any number of media."
  },
  {
   "property": "C75",
   "status": "partial",
   "theorems": [
    "Tracer.C75_mirror_scenes",
    "Tracer.C75_collector",
    "Tracer.C75_border",
    "Tracer.C75_media",
    "Tracer.C75_media_iff",
    "Tracer.C75_progress",
    "Tracer.C75_flat",
    "Tracer.C75_mirrors",
    "Tracer.C75_lambertian",
    "Tracer.C75_refractive",
    "Tracer.C75_quadrics",
    "Tracer.C75_forward",
    "Tracer.C75_safe",
    "Tracer.C75_partial",
    "Tracer.C75_opaque",
    "Tracer.C75_counterexample",
    "Tracer.C75_hemisphere",
    "Tracer.C75_cut_sphere",
    "Tracer.C75_iff",
    "Tracer.C75_opaque_iff"
   ],
   "note": "Proved for scenes of all geometry managers except hemispheres and cut spheres, with refraction between different media. For a hemisphere the claim is false of the code: C75_counterexample gives two rays for which ray_tracer raises ValueError. C75_media and C75_media_iff are about scenes with any number of media. C75_iff and C75_opaque_iff say exactly when a trace raises, with hemispheres and cut spheres included and objects of the default policies: when a generation of rays is one for which such a surface reports a place behind a ray, and C75_hemisphere and C75_cut_sphere say which bundles these are."
  },
  {
   "property": "C76",
   "status": "proved",
   "theorems": [
    "Tracer.C76_parts",
    "Tracer.C76_edges",
    "Tracer.C76_cell",
    "Tracer.C76_total",
    "Tracer.C76_trace",
    "Tracer.C76_collector",
    "Tracer.C76_dishes",
    "Tracer.C76_moved_counterexample"
   ],
   "note": ""
  },
  {
   "property": "C77",
   "status": "partial",
   "theorems": [
    "Tracer.TreeUI.C77_shown",
    "Tracer.TreeUI.C77_once",
    "Tracer.TreeUI.C77_place",
    "Tracer.TreeUI.C77_tags",
    "Tracer.TreeUI.C77_again",
    "Tracer.TreeUI.C77_rename_partial",
    "Tracer.TreeUI.C77_top_fails",
    "Tracer.TreeUI.C77_same_caption_counterexample"
   ],
   "note": "Everything but the caption of the top assembly: it is stored when edited but not shown again (C77_top_fails)."
  },
  {
   "property": "C78",
   "status": "proved",
   "theorems": [
    "Tracer.C78_minidish",
    "Tracer.C78_petal",
    "Tracer.C78_standard_minidish"
   ],
   "note": ""
  },
  {
   "property": "C79",
   "status": "proved",
   "theorems": [
    "Tracer.C79_solar_disk",
    "Tracer.C79_lambertian",
    "Tracer.C79_lambertian_cone",
    "Tracer.C79_not_isotropic"
   ],
   "note": "C79_not_isotropic: what the docstring of LambertianReflector calls a uniform distribution in 3D is the cosine law."
  },
  {
   "property": "C80",
   "status": "partial",
   "theorems": [
    "Tracer.View.C80_once_partial",
    "Tracer.View.C80_show_partial",
    "Tracer.View.C80_show_some_partial",
    "Tracer.View.C80_update_partial",
    "Tracer.View.C80_replace_partial",
    "Tracer.View.C80_new",
    "Tracer.View.C80_rays",
    "Tracer.View.C80_controls",
    "Tracer.View.C80_set_assembly_fails",
    "Tracer.View.C80_set_same_fails",
    "Tracer.View.C80_update_after_clear_fails",
    "Tracer.View.C80_no_source_fails",
    "Tracer.View.C80_render_fails"
   ],
   "note": "Proved for histories in which the assembly is replaced on a cleared scene; otherwise old surfaces stay or are drawn twice (C80_set_assembly_fails, C80_set_same_fails). update_surfaces can raise after clear_scene (C80_update_after_clear_fails), set_source(None) keeps old ray paths (C80_no_source_fails), a failed trace leaves rendering disabled (C80_render_fails). Ray paths (C80_rays) for all histories."
  },
  {
   "property": "C81",
   "status": "proved",
   "theorems": [
    "Tracer.C81_mirrors",
    "Tracer.C81_objects",
    "Tracer.C81_receivers",
    "Tracer.C81_specular",
    "Tracer.C81_construction"
   ],
   "note": ""
  },
  {
   "property": "C82",
   "status": "proved",
   "theorems": [
    "Tracer.C82_mirrors",
    "Tracer.C82_objects",
    "Tracer.C82_receivers",
    "Tracer.C82_specular",
    "Tracer.C82_unreached"
   ],
   "note": ""
  },
  {
   "property": "C83",
   "status": "partial",
   "theorems": [
    "Tracer.C83_flat_policies",
    "Tracer.C83_prunes_partial",
    "Tracer.C83_strong_partial",
    "Tracer.C83_flat",
    "Tracer.C83_counterexample"
   ],
   "note": "Proved without conditions for scenes of flat mirrors (C83_flat), and for all surfaces if rays after the source are settled; C83_counterexample shows two thresholds for which the claim is false."
  },
  {
   "property": "C84",
   "status": "proved",
   "theorems": [
    "Tracer.C84_mirrors",
    "Tracer.C84_exact",
    "Tracer.C84_policies",
    "Tracer.C84_order",
    "Tracer.C84_flat",
    "Tracer.C84_specular"
   ],
   "note": ""
  },
  {
   "property": "C85",
   "status": "proved",
   "theorems": [
    "Tracer.C85_tower",
    "Tracer.C85_spread",
    "Tracer.C85_tower_gui"
   ],
   "note": ""
  },
  {
   "property": "C86",
   "status": "proved",
   "theorems": [
    "Tracer.C86_homogenized",
    "Tracer.C86_minidish",
    "Tracer.C86_petal",
    "Tracer.C86_standard_minidish"
   ],
   "note": "For rays that meet walls and receiver more than the tolerances of the engine apart (Enters, ComesDown)."
  },
  {
   "property": "C87",
   "status": "proved",
   "theorems": [
    "Tracer.C87_window",
    "Tracer.C87_transmitted",
    "Tracer.C87_limit"
   ],
   "note": "For rays that meet the faces more than the tolerances of the engine apart and not grazing (EntersPane)."
  },
  {
   "property": "C88",
   "status": "proved",
   "theorems": [
    "Tracer.C88_reversible",
    "Tracer.C88_recorded",
    "Tracer.C88_reciprocity"
   ],
   "note": "For paths whose legs are longer than 1e-6 and on which no other surface is met (FreeFlight)."
  },
  {
   "property": "C89",
   "status": "proved",
   "theorems": [
    "Tracer.C89_images",
    "Tracer.C89_corner_ends",
    "Tracer.C89_corner",
    "Tracer.C89_two_mirrors"
   ],
   "note": ""
  },
  {
   "property": "C90",
   "status": "proved",
   "theorems": [
    "Tracer.C90_chords",
    "Tracer.C90_cavity",
    "Tracer.C90_receiver",
    "Tracer.C90_absorbed",
    "Tracer.C90_black"
   ],
   "note": "For rays that begin further than 1e-6 from the wall (InCavity)."
  },
  {
   "property": "C91",
   "status": "proved",
   "theorems": [
    "Tracer.C91_helix",
    "Tracer.C91_out",
    "Tracer.C91_infinite",
    "Tracer.C91_finite",
    "Tracer.C91_receiver"
   ],
   "note": "For rays that begin further than 1e-6 from the wall and not all but parallel to the axis (InPipe); for the finite pipe, that begin between its ends."
  },
  {
   "property": "C92",
   "status": "proved",
   "theorems": [
    "Tracer.C92_moment",
    "Tracer.C92_not_trapped",
    "Tracer.C92_energy",
    "Tracer.C92_snell",
    "Tracer.C92_deviation",
    "Tracer.C92_drop",
    "Tracer.C92_inside",
    "Tracer.C92_trapped"
   ],
   "note": "For rays that are further than 1e-6 from the ball and have more than 1e-6 to go inside (FallsOn), or that begin inside (InCavity); two different positive indices."
  },
  {
   "property": "C93",
   "status": "proved",
   "theorems": [
    "Tracer.C93_angles",
    "Tracer.C93_guiding",
    "Tracer.C93_meridional",
    "Tracer.C93_aperture",
    "Tracer.C93_energy",
    "Tracer.C93_infinite",
    "Tracer.C93_finite",
    "Tracer.C93_guided"
   ],
   "note": "For rays that begin inside, further than 1e-6 from where they meet the wall, and that are not, nor what gets out of them, within the code tolerance of being parallel to the axis (InRod); two different positive indices. The end faces are not part of the traced scene: C93_aperture takes the refraction at them from Snell's law."
  },
  {
   "property": "C94",
   "status": "proved",
   "theorems": [
    "Tracer.C94_along",
    "Tracer.C94_kept_out",
    "Tracer.C94_mirrors"
   ],
   "note": "The refracting surfaces are between two different media (MediaScene)."
  },
  {
   "property": "C95",
   "status": "proved",
   "theorems": [
    "Tracer.C95_skew",
    "Tracer.C95_mirrors",
    "Tracer.C95_keeps_off"
   ],
   "note": "The refracting surfaces are between two different media (MediaScene). The surfaces may be trimmed: plates of any shape and hexagonal dishes are included."
  },
  {
   "property": "C96",
   "status": "proved",
   "theorems": [
    "Tracer.C96_layers",
    "Tracer.C96_out",
    "Tracer.C96_kept_out"
   ],
   "note": "The refracting surfaces are between two different media (MediaScene)."
  },
  {
   "property": "C97",
   "status": "proved",
   "theorems": [
    "Tracer.C97_shortest",
    "Tracer.C97_mirrors",
    "Tracer.C97_tangent"
   ],
   "note": "Surfaces that do not scatter; the refracting ones are between two different media (MediaScene). For curved surfaces the claim is about the tangent planes."
  },
  {
   "property": "C98",
   "status": "partial",
   "theorems": [
    "Tracer.C98_law",
    "Tracer.C98_not_again_partial",
    "Tracer.C98_moves_on_partial",
    "Tracer.C98_returns",
    "Tracer.C98_binary64",
    "Tracer.C98_leak_fails",
    "Tracer.C98_exact"
   ],
   "note": "Proved for scenes that are small for the precision and for rays that do not graze; false otherwise (C98_leak_fails). Flat mirrors only; no overflow, underflow or nan."
  },
  {
   "property": "C99",
   "status": "proved",
   "theorems": [
    "Tracer.C99_accuracy",
    "Tracer.C99_directions",
    "Tracer.C99_energy",
    "Tracer.C99_found"
   ],
   "note": "Flat mirrors only; no overflow, underflow or nan."
  },
  {
   "property": "C100",
   "status": "partial",
   "theorems": [
    "Tracer.C100_exact",
    "Tracer.C100_keeps_fails",
    "Tracer.C100_binary64",
    "Tracer.C100_kept_partial"
   ],
   "note": "False of the code in double precision (C100_keeps_fails). Proved for rays that are computed to start not outside the sphere, in any arithmetic of the kind of double precision; missing: that reflected rays are again computed so. No overflow, underflow or nan."
  },
  {
   "property": "C101",
   "status": "partial",
   "theorems": [
    "Tracer.C101_dishes_partial",
    "Tracer.C101_scene",
    "Tracer.C101_scene_ties",
    "Tracer.C101_bound_partial",
    "Tracer.C101_receivers_partial",
    "Tracer.C101_ties",
    "Tracer.C101_fails"
   ],
   "note": "False of the code when a ray meets two surfaces at the same distance (C101_fails). Proved when no ray of the trace does; with ties, bounded by the duplicated energy (C101_ties, default ownership policies and shapes that treat rays one by one). With random rays and flat surfaces it holds almost surely (C118_reports)."
  },
  {
   "property": "C102",
   "status": "partial",
   "theorems": [
    "Tracer.C102_picture",
    "Tracer.C102_suns_partial",
    "Tracer.C102_raises"
   ],
   "note": "The bound on the number of suns assumes that no ray of the trace meets two surfaces at the same distance, as in C101; the rest is proved without it."
  },
  {
   "property": "C103",
   "status": "proved",
   "theorems": [
    "Tracer.C103_trace",
    "Tracer.C103_picture",
    "Tracer.C103_minidish"
   ],
   "note": ""
  },
  {
   "property": "C104",
   "status": "proved",
   "theorems": [
    "Tracer.C104_raises",
    "Tracer.C104_opens",
    "Tracer.C104_shows",
    "Tracer.C104_many",
    "Tracer.C104_unlit"
   ],
   "note": ""
  },
  {
   "property": "C105",
   "status": "proved",
   "theorems": [
    "Tracer.C105_reflections",
    "Tracer.C105_efficiency"
   ],
   "note": ""
  },
  {
   "property": "C106",
   "status": "proved",
   "theorems": [
    "Tracer.C106_shows",
    "Tracer.C106_between",
    "Tracer.C106_behind"
   ],
   "note": ""
  },
  {
   "property": "C107",
   "status": "proved",
   "theorems": [
    "Tracer.C107_rays",
    "Tracer.C107_runs",
    "Tracer.C107_shows",
    "Tracer.C107_delivers",
    "Tracer.C107_map",
    "Tracer.C107_zero",
    "Tracer.C107_defined"
   ],
   "note": ""
  },
  {
   "property": "C108",
   "status": "proved",
   "theorems": [
    "Tracer.C108_resume",
    "Tracer.C108_ended",
    "Tracer.C108_raised",
    "Tracer.C108_policies_matter",
    "Tracer.C108_weak_matter",
    "Tracer.C108_library",
    "Tracer.C108_scene"
   ],
   "note": ""
  },
  {
   "property": "C109",
   "status": "proved",
   "theorems": [
    "Tracer.C109_saving",
    "Tracer.C109_flat",
    "Tracer.C109_library",
    "Tracer.C109_facing_plates",
    "Tracer.C109_half_receiver",
    "Tracer.C109_scene",
    "Tracer.C109_collector",
    "Tracer.C109_tower"
   ],
   "note": ""
  },
  {
   "property": "C110",
   "status": "partial",
   "theorems": [
    "Tracer.C110_lens_partial",
    "Tracer.C110_lens_integers",
    "Tracer.C110_thin_lens",
    "Tracer.C110_hartmann",
    "Tracer.C110_stagger",
    "Tracer.C110_refraction_partial",
    "Tracer.C110_toggle",
    "Tracer.C110_sum",
    "Tracer.C110_trapped",
    "Tracer.C110_enters",
    "Tracer.C110_fresnel_fails",
    "Tracer.C110_heliostat_raises",
    "Tracer.C110_heliostat_to_sun",
    "Tracer.C110_heliostat_partial",
    "Tracer.C110_heliostat_iff",
    "Tracer.C110_heliostat_height",
    "Tracer.C110_location",
    "Tracer.C110_rotation"
   ],
   "note": "False of the code. C110_lens_partial, C110_refraction_partial and C110_heliostat_partial are the cases where integers are as good as floats; C110_lens_integers, C110_hartmann, C110_stagger, C110_enters, C110_heliostat_iff, C110_location and C110_rotation say exactly when they are, C110_thin_lens, C110_trapped, C110_heliostat_raises, C110_heliostat_to_sun and C110_fresnel_fails what happens otherwise. Missing: whole traces with integer indices; overflow of machine integers."
  },
  {
   "property": "C111",
   "status": "partial",
   "theorems": [
    "Tracer.C111_unshared",
    "Tracer.C111_managers",
    "Tracer.C111_iteration_raises",
    "Tracer.C111_raises",
    "Tracer.C111_twice",
    "Tracer.C111_shared_fails"
   ],
   "note": "False of the code (C111_shared_fails, C111_raises, C111_twice). C111_unshared is the case without sharing. Missing: what happens in later iterations of a trace in which only surfaces listed before the others of their manager were hit."
  },
  {
   "property": "C112",
   "status": "partial",
   "theorems": [
    "Tracer.Graph.C112_frames",
    "Tracer.Graph.C112_unique_partial",
    "Tracer.Graph.C112_add_object",
    "Tracer.Graph.C112_calls",
    "Tracer.Graph.C112_add_assembly",
    "Tracer.Graph.C112_twice",
    "Tracer.Graph.C112_taken",
    "Tracer.Graph.C112_depth",
    "Tracer.Graph.C112_cycle",
    "Tracer.Graph.C112_no_cycle",
    "Tracer.Graph.C112_same_list",
    "Tracer.Graph.C112_get_objects",
    "Tracer.Graph.C112_get_surfaces"
   ],
   "note": "False of the code (C112_twice, C112_taken, C112_no_cycle, C112_same_list, C112_get_objects, C112_get_surfaces). C112_unique_partial is the case with one way down; C112_frames holds in general. Missing: arrays shared between transforms (C25 and Model/Frames.lean treat them for single components), the state after a call that raised."
  },
  {
   "property": "C113",
   "status": "partial",
   "theorems": [
    "Tracer.C113_exists",
    "Tracer.C113_average",
    "Tracer.C113_converges",
    "Tracer.C113_unbiased",
    "Tracer.C113_error",
    "Tracer.C113_threshold",
    "Tracer.C113_flat",
    "Tracer.C113_sun",
    "Tracer.C113_threshold_fails",
    "Tracer.C113_sun_plate",
    "Tracer.C113_sun_round_plate",
    "Tracer.C113_plate",
    "Tracer.C113_round_plate",
    "Tracer.C113_plate_total"
   ],
   "note": "False for a fixed min_energy > 0 (C113_threshold_fails, C113_threshold); proved with min_energy divided by the number of rays. The rays must be settled: no surface 1e-10 to 1e-6 in front of a ray (for flat mirrors only the source rays matter, C113_flat). Mirrors and receivers only, no refraction or scattering. That the generator draws independently is an assumption."
  },
  {
   "property": "C114",
   "status": "proved",
   "theorems": [
    "Tracer.C114_bounds",
    "Tracer.C114_threshold",
    "Tracer.C114_iterations",
    "Tracer.C114_limit",
    "Tracer.C114_flat",
    "Tracer.C114_mean",
    "Tracer.C114_tower",
    "Tracer.C114_sun"
   ],
   "note": "Hypotheses: the rays are settled (no surface 1e-10 to 1e-6 in front of a ray) and have no two nearest surfaces; both are derived for flat surfaces without common points and rays that start away from them (C114_flat), and almost surely for flat surfaces in different planes under solar_disk_bundle (C114_sun), as are the heliostat fields of the package (C114_tower). Mirrors and receivers only."
  },
  {
   "property": "C115",
   "status": "proved",
   "theorems": [
    "Tracer.C115_zone",
    "Tracer.C115_white_sphere",
    "Tracer.C115_accuracy"
   ],
   "note": "One sphere alone in the scene. Random numbers are taken from a sequence that is part of the state (DrawsFrom); rays that are sent on within 1e-6 of the wall leave the sphere because of the tolerance of the engine, which is the exceptional set of the theorem."
  },
  {
   "property": "C116",
   "status": "proved",
   "theorems": [
    "Tracer.C116_nusselt",
    "Tracer.C116_accuracy",
    "Tracer.C116_round",
    "Tracer.C116_facing"
   ],
   "note": "Two objects, one surface each, two iterations. Random numbers are taken from a sequence that is part of the state (DrawsFrom)."
  },
  {
   "property": "C117",
   "status": "proved",
   "theorems": [
    "Tracer.C117_view_factor",
    "Tracer.C117_reciprocity",
    "Tracer.C117_trace"
   ],
   "note": "Two objects, one surface each, two iterations; direct light only. The places are given as a source that is spread evenly over the surface."
  },
  {
   "property": "C118",
   "status": "proved",
   "theorems": [
    "Tracer.C118_parallel",
    "Tracer.C118_sun",
    "Tracer.C118_balance",
    "Tracer.C118_once",
    "Tracer.C118_reports",
    "Tracer.C118_tie"
   ],
   "note": "Flat mirrors and receivers; C118_tie shows that single rays can still meet a tie. Scenes with two overlapping surfaces in one plane are excluded: there C66_counterexample applies."
  },
  {
   "property": "C119",
   "status": "proved",
   "theorems": [
    "Tracer.C119_sure",
    "Tracer.C119_enough",
    "Tracer.C119_sun_plate",
    "Tracer.C119_tower",
    "Tracer.C119_sun"
   ],
   "note": "C119_sure and C119_enough: any mirrors and receivers, if rays are settled (as in C113) and almost surely untied. C119_sun: flat scenes under solar_disk_bundle, nothing assumed about ties. C119_tower: the same for a HeliostatField with its receiver, after any calls that end with aim_to_sun, with room between the plates. C119_sun_plate: the true value is known."
  },
  {
   "property": "C120",
   "status": "proved",
   "theorems": [
    "Tracer.C120_delivered",
    "Tracer.C120_delivered_report",
    "Tracer.C120_exact",
    "Tracer.C120_exact_report",
    "Tracer.C120_intercepted",
    "Tracer.C120_report"
   ],
   "note": "An upper bound for all fields, and the matching lower bound (C120_delivered) and equality (C120_exact) for fields without shading, blocking and spillage (Unobstructed); what the heliostats lose by these is not computed. OneSide and SeenFromDisk say that all rays fall on one side of each heliostat and that the disk covers it; the example shows both for two heliostats."
  }
 ]
}