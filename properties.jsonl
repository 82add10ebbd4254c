{"id": "C01", "title": "Adding bundles keeps rays in order", "statement": "For two ray bundles a and b, a + b carries exactly the properties that are set in both, and the value of each of them is a's rays followed by b's rays, in order. A property set in only one of them is not set in the sum, and neither operand changes.", "quantifier": "every pair of bundles: any set of base and user-defined properties, any number of rays (including zero), any values", "why_tests_cant": "Property sets, ray counts and values are unbounded; a test fixes one combination.", "anchors": ["tracer/ray_bundle.py: RayBundle.__add__, RayBundle._create_property, RayBundle.has_property"]}
{"id": "C02", "title": "concatenate_rays flattens a list of bundles", "statement": "concatenate_rays(list) returns, for every property set in the first bundle, the rays of all the bundles in list order. For the empty list it returns a bundle with zero rays and all five base properties set. If some later bundle lacks a property that is set in the first, the call raises instead of returning misaligned arrays.", "quantifier": "every list of bundles (any length, any property sets, any sizes)", "why_tests_cant": "Lists of any length with any property sets; a test concatenates two fixed bundles.", "anchors": ["tracer/ray_bundle.py: concatenate_rays, RayBundle.empty_bund"]}
{"id": "C03", "title": "inherit overrides what is given and copies the rest", "statement": "b.inherit(selector, given...) returns a new bundle in which a property that was given has the given value, a property that was not given but is set in b has b's values at the selected rays in selector order (repetitions allowed), and a property neither given nor set in b is unset. The full-slice default copies everything. b itself is unchanged.", "quantifier": "every bundle, every selector of valid indices (any order, repeats), every choice of overridden properties", "why_tests_cant": "Infinitely many selector/override combinations; tests exercise four.", "anchors": ["tracer/ray_bundle.py: RayBundle.inherit"]}
{"id": "C04", "title": "delete_rays removes exactly the selected rays", "statement": "b.delete_rays(selector) keeps precisely the rays whose index is not in selector, in their original order, for every property that is set; order and repetition inside the selector do not matter, and the kept and the deleted rays together are all the rays of b.", "quantifier": "every bundle and every index list", "why_tests_cant": "All selectors of all sizes; the test deletes one ray of four.", "anchors": ["tracer/ray_bundle.py: RayBundle.delete_rays"]}
{"id": "C05", "title": "Property getters and setters are consistent", "statement": "After set_x(v), get_x() returns v; after set_x(v, selector), the selected rays hold v and all other rays and all other properties are unchanged; get_x(selector) picks the selected rays. has_property tells whether the property was created, independent of whether it has a value.", "quantifier": "every bundle, property, value and selector", "why_tests_cant": "Quantifies over all states and selectors.", "anchors": ["tracer/ray_bundle.py: RayBundle._create_property, getter, setter, has_property"]}
{"id": "C06", "title": "Recorded parents are valid and propagate", "statement": "After ray_tracer(..., tree=True), every ray of every recorded bundle after the source has a parent index that denotes a ray of the previous recorded bundle, and that parent is one of the rays that were kept for propagation at that level (not one of the low-energy rays moved to its end).", "quantifier": "every assembly, source bundle, iteration limit, energy threshold, and every surface obeying the trace protocol", "why_tests_cant": "The index arithmetic (owned-ray compression, per-surface selection, low-energy deletion, re-ordering) must compose correctly for every mixture of hits on every surface at every level.", "anchors": ["tracer/tracer_engine.py: TracerEngine.ray_tracer", "tracer/trace_tree.py: RayTree.append"]}
{"id": "C07", "title": "Each recorded ray starts on its parent's ray", "statement": "In the recorded tree, every ray's starting point lies on its parent's ray, strictly in front of the parent's starting point (parameter greater than 1e-10), at the intersection with the surface that produced it.", "quantifier": "every trace of every assembly built from the package's geometry managers whose selection is per-ray (flat, plates, triangles, spheres, cylinders, paraboloids, dishes), at every level", "why_tests_cant": "Combines index bookkeeping with geometry over unbounded levels and arbitrary scenes.", "anchors": ["tracer/tracer_engine.py: ray_tracer, intersect_ray", "tracer/optics_callables.py", "tracer/surface.py: get_outgoing"]}
{"id": "C08", "title": "A ray interacts with its nearest surface", "statement": "intersect_ray marks a surface for a ray iff that surface was tested for the ray, its returned parameter is finite and not discarded as a self-hit, and no other tested surface returned a smaller non-discarded parameter. If all tested surfaces miss, no surface is marked.", "quantifier": "every stack of parameters: any number of surfaces and rays, any ownership and relevancy", "why_tests_cant": "Ranges over all parameter matrices.", "anchors": ["tracer/tracer_engine.py: TracerEngine.intersect_ray"]}
{"id": "C09", "title": "A ray interacts with at most one surface per iteration", "statement": "In one iteration each incoming ray generates outgoing rays from at most one surface.", "quantifier": "every scene and bundle", "why_tests_cant": "Needs every coincidence of distances to be considered. (False for the code when two surfaces tie; the proved part assumes no tie and the tie is exhibited.)", "anchors": ["tracer/tracer_engine.py: intersect_ray (stack == stack.min(axis=0))"]}
{"id": "C10", "title": "Low-energy rays are recorded but not propagated", "statement": "In every iteration the bundle carried to the next iteration consists exactly of the generated rays with energy strictly above min_energy, in generation order; the recorded bundle is that bundle followed by the remaining generated rays in generation order, so indices of propagated rays are the same in both.", "quantifier": "every trace, threshold and level", "why_tests_cant": "The partition and the index stability must hold for any mixture of energies over any number of surfaces.", "anchors": ["tracer/tracer_engine.py: ray_tracer (delete, weak_ray_pos, record)"]}
{"id": "C11", "title": "The iteration limit bounds the trace", "statement": "The recorded tree holds at most reps + 1 bundles and starts with the source bundle itself; the trace stops as soon as no ray is left to propagate; with reps = 0 the returned vertices and directions are the source's. Every recorded bundle after the first is non-empty.", "quantifier": "every reps, scene and source", "why_tests_cant": "Unbounded number of iterations.", "anchors": ["tracer/tracer_engine.py: ray_tracer"]}
{"id": "C12", "title": "Exactly the hitting rays have children", "statement": "With surfaces that answer every selected ray, a propagated ray has at least one child in the next recorded bundle if and only if some tested surface returned a usable intersection for it; rays that escape have none.", "quantifier": "every scene, bundle and level", "why_tests_cant": "Holds for all mixtures of hits and misses.", "anchors": ["tracer/tracer_engine.py: ray_tracer, intersect_ray"]}
{"id": "C13", "title": "Ownership and relevancy restrict testing, nothing else", "statement": "A surface is asked about exactly those rays that are unowned or owned by the surface's object and for which the surface is marked relevant. Rays leaving an object that claims them are tested in the next iteration only by that object's surfaces; rays leaving a one-sided mirror skip all surfaces of that object in the next iteration only; surfaces of other objects are unaffected by an object's relevancy answer.", "quantifier": "every scene with any ownership/relevancy policy, every level", "why_tests_cant": "The ownership/relevancy matrices are re-assembled per iteration from per-surface blocks; all layouts must align.", "anchors": ["tracer/tracer_engine.py: ray_tracer (surf_ownership, surfs_until_obj, surf_relev)", "tracer/object.py: own_rays, surfaces_for_next_iteration", "tracer/models/one_sided_mirror.py: surfaces_for_next_iteration"]}
{"id": "C14", "title": "Rays are traced independently of each other", "statement": "Tracing a merged bundle produces, level by level and up to order, the union of what tracing the parts separately produces.", "quantifier": "every scene of per-ray surfaces, every split of the source bundle, every level", "why_tests_cant": "A relational property over all pairs of runs. (False for the code because of the 1e-10/1e-6 self-hit thresholds; the proved part excludes parameters in that window and the failure is exhibited.)", "anchors": ["tracer/tracer_engine.py: intersect_ray, ray_tracer"]}
{"id": "C15", "title": "Energy never increases along the tree", "statement": "When the surfaces do not create energy and no two surfaces tie, the energies of the children of any propagated ray sum to at most that ray's energy; hence the total energy of every recorded bundle is at most that of the source.", "quantifier": "every scene of reflective/absorbing/refractive surfaces with absorptivity in [0,1], every level", "why_tests_cant": "Sum over unbounded trees.", "anchors": ["tracer/tracer_engine.py: ray_tracer", "tracer/optics_callables.py"]}
{"id": "C16", "title": "tree=False only changes what is recorded", "statement": "Running with tree=False returns the same vertices and directions as with tree=True and records exactly one bundle, holding all rays generated in the last iteration.", "quantifier": "every scene, source, threshold and reps >= 1", "why_tests_cant": "A relation between two runs of any length. With reps = 0 and tree=False the call raises; this is covered explicitly.", "anchors": ["tracer/tracer_engine.py: ray_tracer(tree)"]}
{"id": "C17", "title": "ray_history follows parents back to the source", "statement": "tree.ray_history(i, level) returns i and then, level by level, the index of its ancestor down to the source bundle.", "quantifier": "every recorded tree, level and ray", "why_tests_cant": "All trees and depths. (False for the code: the method has no self parameter and cannot succeed; with that repaired it still stops one level short of the source and is off by one for the default level.)", "anchors": ["tracer/trace_tree.py: RayTree.ray_history"]}
{"id": "C18", "title": "ordered_parents lists the parents of each level after the source", "statement": "ordered_parents() has one entry less than the number of recorded bundles, and entry k holds the parent indices of recorded bundle k+1; following these entries from any recorded ray reaches a source ray in exactly as many steps as the ray's level.", "quantifier": "every recorded tree, level and ray", "why_tests_cant": "Unbounded trees.", "anchors": ["tracer/trace_tree.py: RayTree.ordered_parents, append, __getitem__, num_bunds"]}
{"id": "C19", "title": "Surface and object numbering agree", "statement": "For an assembly of any nesting, the k-th surface of get_surfaces() is the surface with relative index k - surfs_until_obj[o] of the o-th object of get_objects(), where o = surf_ownership[k]; get_surfaces() is the concatenation of the objects' surfaces in get_objects() order; sub-assemblies' objects come before local ones.", "quantifier": "every assembly tree (any depth, any branching, objects with any number of surfaces, including none)", "why_tests_cant": "All trees.", "anchors": ["tracer/assembly.py: get_objects, get_surfaces", "tracer/tracer_engine.py: ray_tracer (surf_ownership, surfs_until_obj)"]}
{"id": "C20", "title": "Negative parameters are rejected, nothing else", "statement": "intersect_ray raises ValueError exactly when some surface returned a parameter below -1e-16 (or when there is no surface at all); otherwise it returns masks of the right shape.", "quantifier": "every parameter matrix", "why_tests_cant": "All parameter matrices.", "anchors": ["tracer/tracer_engine.py: intersect_ray"]}
{"id": "C21", "title": "A ray does not re-hit the point it starts from", "statement": "No surface is ever marked for a ray at a parameter of at most 1e-10; and a tested parameter above 1e-6 is never discarded.", "quantifier": "every parameter matrix", "why_tests_cant": "All parameter matrices.", "anchors": ["tracer/tracer_engine.py: intersect_ray"]}
{"id": "C22", "title": "Global frames are products of the frames on the path", "statement": "After any of: constructing an assembly from children, adding an object or assembly, set_transform/set_location/set_rotation on an assembly that has no parent, or transform_children(T), the frame used for tracing of every surface below it is the product of T (identity if not given), the transforms of the assemblies and object on the path, and the surface's own transform; no node's own (relative) transform other than the one set changes.", "quantifier": "every assembly tree, every transform, every sequence of such operations on the root", "why_tests_cant": "All trees and all histories of operations.", "anchors": ["tracer/assembly.py", "tracer/object.py: transform_children", "tracer/has_frame.py: transform_frame"]}
{"id": "C23", "title": "Global frames stay right when any component is moved", "statement": "The frame used for tracing of every surface reflects the world position whenever its own frame or any of its ancestors' frames changes.", "quantifier": "every assembly tree and every history of moves of any component", "why_tests_cant": "All histories. (False for the code: moving a component below the root recomputes the frames without the ancestors; proved part: all ancestors at identity, or a subsequent root transform_children; the failure is exhibited.)", "anchors": ["tracer/assembly.py: set_transform, set_location, set_rotation, transform_children", "user-doc/opt_sys_construct.rst"]}
{"id": "C24", "title": "Location, rotation and transform stay in sync", "statement": "After any sequence of set_location, set_rotation and set_transform calls, get_location and get_rotation are the translation and rotation parts of get_transform; set_location keeps the rotation and set_rotation keeps the location; a location that is not 3-component or a rotation that is not 3x3 raises ValueError and changes nothing.", "quantifier": "every sequence of calls with any arguments", "why_tests_cant": "All call histories.", "anchors": ["tracer/has_frame.py: HasFrame"]}
{"id": "C25", "title": "Components do not share their frames", "statement": "Moving one component never changes the frame of another component that is not below it.", "quantifier": "every history of set_transform/set_location/set_rotation calls over any set of components", "why_tests_cant": "All histories, including sharing of one array between components. (False for the code when one transform array is handed to two components, as the homogenized receiver model does; proved part: arrays distinct.)", "anchors": ["tracer/has_frame.py: set_transform, set_location, set_rotation", "tracer/models/homogenized_local_receiver.py: receiver_frame"]}
{"id": "C26", "title": "Rotation helpers produce proper rotations", "statement": "general_axis_rotation(axis, angle) for a unit axis is orthogonal with determinant 1, leaves the axis fixed, is additive in the angle, and for the coordinate axes equals rotx/roty/rotz; rotx, roty, rotz and translate are rigid homogeneous transforms; generate_transform has that rotation and the given translation.", "quantifier": "every unit axis, every pair of angles, every translation", "why_tests_cant": "Continuum of axes and angles.", "anchors": ["tracer/spatial_geometry.py: general_axis_rotation, generate_transform, rotx, roty, rotz, translate"]}
{"id": "C27", "title": "rotation_to_z builds a right-handed frame on the direction", "statement": "rotation_to_z(v) for a unit vector v is a proper rotation whose third column is v and whose first column lies in the XY plane; for v = +Z it is the identity.", "quantifier": "every unit vector (including both poles) and every list of them", "why_tests_cant": "Continuum with a singular case.", "anchors": ["tracer/spatial_geometry.py: rotation_to_z"]}
{"id": "C28", "title": "Moving the scene and the rays together changes nothing", "statement": "If a surface's frame and a ray bundle are moved by the same rigid transform, the surface returns the same parameters, and hit points and normals move with the transform.", "quantifier": "every rigid transform, frame, bundle, and each geometry manager of the package", "why_tests_cant": "Relational over a continuum of motions.", "anchors": ["tracer/flat_surface.py", "tracer/quadric.py", "tracer/sphere_surface.py", "tracer/cylinder.py", "tracer/paraboloid.py", "tracer/triangular_face.py"]}
{"id": "C29", "title": "global_to_local inverts the surface frame", "statement": "For a surface whose frame is invertible, global_to_local maps the global image of any local point back to that point, and mesh() returns the frame image of the local mesh.", "quantifier": "every invertible frame and every point set", "why_tests_cant": "Continuum.", "anchors": ["tracer/surface.py: global_to_local, mesh"]}
{"id": "C30", "title": "Flat surface intersection is exact", "statement": "For a ray not within 1e-10 of parallel, the infinite flat surface returns t iff the point at parameter t >= 0 along the ray lies in the surface's plane, and infinity iff there is no such t; rays within 1e-10 of parallel miss.", "quantifier": "every frame and ray", "why_tests_cant": "Continuum of rays.", "anchors": ["tracer/flat_surface.py: FlatGeometryManager.find_intersections, select_rays"]}
{"id": "C31", "title": "Rectangular plate aperture is exact", "statement": "A rectangular plate is hit at t iff the infinite plane is hit at t and the local coordinates of the point satisfy |x| <= width/2 and |y| <= height/2 (edges included); the constructor rejects non-positive dimensions.", "quantifier": "every frame, ray, width and height", "why_tests_cant": "Continuum.", "anchors": ["tracer/flat_surface.py: RectPlateGM, FiniteFlatGM"]}
{"id": "C32", "title": "Round plate aperture is exact", "statement": "A round plate is hit at t iff the infinite plane is hit at t and the point is within R of the local origin (edge included); the constructor rejects R <= 0.", "quantifier": "every frame, ray and radius", "why_tests_cant": "Continuum.", "anchors": ["tracer/flat_surface.py: RoundPlateGM"]}
{"id": "C33", "title": "Triangular face aperture is exact", "statement": "For a non-degenerate triangle the face is hit at t iff the plane is hit at t and the point is a convex combination of the triangle's three vertices (in the global frame).", "quantifier": "every rigid frame, ray and non-degenerate triangle on the local XY plane", "why_tests_cant": "Continuum.", "anchors": ["tracer/triangular_face.py: TriangularFace.find_intersections"]}
{"id": "C34", "title": "Sphere intersection is the first forward crossing", "statement": "For a unit-direction ray, the closed sphere returns the smallest t > 0 at which the ray is on the sphere, and infinity iff there is none.", "quantifier": "every centre, radius and ray (inside, outside, tangent)", "why_tests_cant": "Continuum with degenerate cases.", "anchors": ["tracer/quadric.py: find_intersections, _select_coords", "tracer/sphere_surface.py: SphericalGM.get_ABC"]}
{"id": "C35", "title": "Cylinder intersection is the first forward crossing within its height", "statement": "For rays whose direction is not within the planar tolerance of the axis, the infinite (finite) cylinder returns the smallest t > 0 at which the ray is on the cylinder (and within half the height of the middle), infinity iff there is none; rays parallel to the axis miss.", "quantifier": "every rigid frame, diameter, height and unit ray", "why_tests_cant": "Continuum with degenerate cases.", "anchors": ["tracer/cylinder.py: InfiniteCylinder, FiniteCylinder"]}
{"id": "C36", "title": "Paraboloid intersection is the first forward crossing", "statement": "Away from the nearly-axial tolerance (A > 1e-10, or A = 0 exactly), the paraboloid returns the smallest t > 0 at which the ray meets z = (x/a)^2 + (y/b)^2, infinity iff there is none. Inside the tolerance the returned point misses the surface equation by exactly A*t^2 <= 1e-10*t^2.", "quantifier": "every rigid frame, a, b and ray", "why_tests_cant": "Continuum with degenerate cases.", "anchors": ["tracer/paraboloid.py: Paraboloid.get_ABC", "tracer/quadric.py: find_intersections"]}
{"id": "C37", "title": "Parabolic dish: aperture and focus", "statement": "A hit of the parabolic dish lies on z = (x^2+y^2)/(4 f) within the aperture diameter, is the first forward such crossing, and a ray coming down the axis direction is reflected through the focal point (0, 0, f) of the dish.", "quantifier": "every rigid frame, diameter, focal length and ray", "why_tests_cant": "Continuum.", "anchors": ["tracer/paraboloid.py: ParabolicDishGM", "tracer/optics.py: reflections"]}
{"id": "C38", "title": "Hexagonal dish aperture is the regular hexagon", "statement": "A hit of the hexagonal dish lies within the regular hexagon of circumscribed diameter `diameter` with two sides parallel to the Y axis, and is the first forward such crossing of the paraboloid.", "quantifier": "every rigid frame, diameter, focal length and ray", "why_tests_cant": "Continuum.", "anchors": ["tracer/paraboloid.py: HexagonalParabolicDishGM._select_coords"]}
{"id": "C39", "title": "Hemisphere and cut-sphere hits are inside the kept part", "statement": "For each ray, HemisphereGM (CutSphereGM) returns the smallest t > 0 at which the ray is on the sphere and in the lower hemisphere (in the bounding volume), infinity iff none, whatever the other rays of the bundle are.", "quantifier": "every frame, radius, bounding volume and bundle", "why_tests_cant": "Depends on all rays of the bundle at once. (False for the code: the selected indices are assigned in the wrong order when the bundle mixes rays hitting at their first and at their second root; proved part: bundles in which all single-hit rays use the same root, in particular single-ray bundles; the failure is exhibited.)", "anchors": ["tracer/sphere_surface.py: HemisphereGM._select_coords, CutSphereGM._select_coords"]}
{"id": "C40", "title": "Normals are unit, orthogonal to the surface and face the ray", "statement": "At every hit point each geometry manager reports a unit vector normal to the surface there, on the side the ray comes from (non-positive dot product with the ray direction).", "quantifier": "every geometry manager, rigid frame and ray", "why_tests_cant": "Continuum.", "anchors": ["tracer/flat_surface.py: get_normals", "tracer/sphere_surface.py: _normals", "tracer/paraboloid.py: _normals", "tracer/cylinder.py: _normals"]}
{"id": "C41", "title": "Boundary shapes answer membership", "statement": "BoundarySphere.in_bounds is membership in the ball around the transformed centre; BoundaryPlane.in_bounds is membership in the half-space on the positive local Z side; BoundaryCylinder.in_bounds is membership in the cylinder around the local Z axis.", "quantifier": "every frame, size and point set", "why_tests_cant": "Continuum. (False for BoundaryCylinder: it uses the frame instead of its inverse and only accepts exactly three points; exhibited.)", "anchors": ["tracer/boundary_shape.py: in_bounds"]}
{"id": "C42", "title": "Bounding rectangle contains the section of the sphere", "statement": "BoundarySphere.bounding_rect_for_plane(T) returns a rectangle in the XY plane of T that contains every point of the sphere lying in that plane.", "quantifier": "every centre, radius and rigid transform", "why_tests_cant": "Continuum. (False for the code in general; proved when the centre's global z is 0, failure exhibited otherwise; raises after the sphere has been transformed.)", "anchors": ["tracer/boundary_shape.py: BoundarySphere.bounding_rect_for_plane"]}
{"id": "C43", "title": "The surface protocol never trips over missing state", "statement": "In every sequence of calls the engine can make on a surface over any number of iterations and traces (register, then optionally select and get_outgoing, then done; or only done), no geometry manager accesses an attribute that was not set or was already deleted. Every trace therefore gives the result it would give on new surfaces, and no surface keeps the bundle after a trace. (For surfaces that do not share a geometry manager; sharing breaks it, exhibited.)", "quantifier": "every call history the engine can produce", "why_tests_cant": "Unbounded histories.", "anchors": ["tracer/surface.py", "tracer/geometry_manager.py", "tracer/flat_surface.py", "tracer/quadric.py", "tracer/tracer_engine.py"]}
{"id": "C44", "title": "Reflection obeys the law of reflection", "statement": "For a unit normal, reflections() preserves the length of the direction, reverses its normal component, keeps its tangential component, is an involution, and does not depend on the sign of the normal.", "quantifier": "every direction and unit normal, any number of rays", "why_tests_cant": "Continuum.", "anchors": ["tracer/optics.py: reflections"]}
{"id": "C45", "title": "Refraction obeys Snell's law", "statement": "For unit directions and normals and positive indices, each refracted direction is a unit vector in the plane of incidence, continues to the other side of the surface, and n1*sin(in) = n2*sin(out) (tangential components scale by n1/n2); with n1 = n2 the direction is unchanged; refracting back restores the direction.", "quantifier": "every pair of indices, unit direction and unit normal (either sign)", "why_tests_cant": "Continuum.", "anchors": ["tracer/optics.py: refractions"]}
{"id": "C46", "title": "Total internal reflection is decided correctly", "statement": "refractions() marks a ray refracted iff n1*sin(in) <= n2, and returns directions for exactly the refracted rays in order; with n1 <= n2 every ray refracts.", "quantifier": "every list of rays, indices and normals", "why_tests_cant": "Continuum, any list.", "anchors": ["tracer/optics.py: refractions"]}
{"id": "C47", "title": "Fresnel reflectance is a fraction", "statement": "For a refracting ray the reflectance is between 0 and 1 (unless the incidence is exactly grazing with equal indices, where it is undefined); it is 0 for equal indices, 1 at grazing incidence, ((n1-n2)/(n1+n2))^2 at normal incidence.", "quantifier": "every pair of positive indices and every non-TIR incidence", "why_tests_cant": "Continuum.", "anchors": ["tracer/optics.py: fresnel"]}
{"id": "C48", "title": "Reflective surfaces scale energy and keep bookkeeping", "statement": "A Reflective surface returns one ray per selected ray: start at the hit point, reflected direction, energy times (1 - absorptivity), parent equal to the selected index, everything else inherited.", "quantifier": "every bundle, selection and absorptivity", "why_tests_cant": "All bundles and selections.", "anchors": ["tracer/optics_callables.py: Reflective"]}
{"id": "C49", "title": "Refractive surfaces conserve energy", "statement": "RefractiveHomogenous returns one reflected ray per selected ray followed by one refracted ray per non-TIR selected ray; for every selected ray the energies of its children sum to its energy; TIR rays keep all their energy; refracted rays carry the other index, reflected rays keep theirs.", "quantifier": "every bundle, selection and pair of indices", "why_tests_cant": "All bundles and mixtures of TIR and refraction.", "anchors": ["tracer/optics_callables.py: RefractiveHomogenous"]}
{"id": "C50", "title": "Crossing a refractive surface twice restores the index", "statement": "toggle_ref_idx maps each of the surface's two indices to the other; toggling twice restores either index; any other current index is mapped to the first one.", "quantifier": "every pair of indices and current index array", "why_tests_cant": "All arrays.", "anchors": ["tracer/optics_callables.py: RefractiveHomogenous.toggle_ref_idx"]}
{"id": "C51", "title": "Receivers account for all absorbed energy", "statement": "After any sequence of calls since the last reset, get_all_hits returns, in order, one entry per received ray with its hit point and energy*absorptivity; for each call absorbed plus outgoing energy equals the incoming energy of the selected rays; reset forgets everything.", "quantifier": "every history of calls and resets", "why_tests_cant": "Unbounded histories.", "anchors": ["tracer/optics_callables.py: AbsorptionAccountant, ReflectiveReceiver, LambertianReceiver"]}
{"id": "C52", "title": "One-sided optics", "statement": "AbsorberReflector behaves like Reflective for rays coming from the up side (or along the surface) and gives zero energy to rays coming from the back.", "quantifier": "every bundle, selection, frame and absorptivity", "why_tests_cant": "All bundles.", "anchors": ["tracer/optics_callables.py: AbsorberReflector"]}
{"id": "C53", "title": "Lambertian reflection leaves on the side of the normal", "statement": "For every outcome of the random draws, a Lambertian surface returns one unit direction per selected ray, on the side of the reported normal (hence the side the ray came from), with energy times (1 - absorptivity) and the right parent.", "quantifier": "every random outcome, bundle, selection and normal", "why_tests_cant": "All random outcomes.", "anchors": ["tracer/optics_callables.py: LambertianReflector", "tracer/sources.py: pillbox_sunshape_directions"]}
{"id": "C54", "title": "Hartmann dispersion", "statement": "refr_idx_hartmann(L, a, b, c, d, e) = a + b/(c - L) + d/(e - L).", "quantifier": "all coefficients and wavelengths", "why_tests_cant": "Continuum. (False for the code: the d/(e - L) term is missing; exhibited; holds when d = 0.)", "anchors": ["tracer/optics.py: refr_idx_hartmann"]}
{"id": "C55", "title": "Pillbox directions stay in the cone", "statement": "For every outcome of the random draws, every direction is a unit vector whose angle from +Z is at most ang_range.", "quantifier": "every random outcome, every ang_range in [0, pi], any number of rays", "why_tests_cant": "All random outcomes; a statistical test samples.", "anchors": ["tracer/sources.py: pillbox_sunshape_directions"]}
{"id": "C56", "title": "Solar disk bundles are on the disk, in the cone, with the right power", "statement": "For every random outcome, all rays start in the disk of the given centre and radius perpendicular to the direction, deviate at most ang_range from the direction, and with flux given the energies are equal and sum to flux*pi*radius^2.", "quantifier": "every random outcome, direction, centre, radius, ang_range and number of rays >= 1", "why_tests_cant": "All random outcomes.", "anchors": ["tracer/sources.py: solar_disk_bundle"]}
{"id": "C57", "title": "square_bundle makes the requested number of rays", "statement": "square_bundle(n, ...) returns a bundle with n vertices and n directions, starting in the plane through the centre normal to the direction, within the square of the given width.", "quantifier": "every n, centre, direction and width", "why_tests_cant": "All n. (False for the code unless n is a perfect square: the grid has ceil(sqrt n)^2 points but n directions; and the square spans [-width, width); exhibited.)", "anchors": ["tracer/sources.py: square_bundle"]}
{"id": "C58", "title": "Homogenizer walls enclose the box", "statement": "rect_homogenizer(x, y, h, eff) yields four plates that are exactly the four side faces of the box |X|<=x/2, |Y|<=y/2, 0<=Z<=h, all with their reflecting side facing inwards and absorptivity 1-eff.", "quantifier": "every positive x, y, h", "why_tests_cant": "Continuum.", "anchors": ["tracer/models/homogenizer.py: rect_homogenizer"]}
{"id": "C59", "title": "Heliostats send the sun to the tower", "statement": "After aim_to_sun(az, el), for a field at identity, a ray arriving from the sun at a heliostat's centre is reflected in the direction from the heliostat to the aim point, for every heliostat for which the sun is not exactly opposite to the tower.", "quantifier": "every field layout, aim height, sun position", "why_tests_cant": "Continuum.", "anchors": ["tracer/models/heliostat_field.py: aim_to_sun, solar_vector"]}
{"id": "C60", "title": "Triangulated surfaces reproduce their faces", "statement": "Every surface created by TriangulatedSurface is the triangle of the corresponding non-degenerate input face: its frame maps its local triangle to the three given vertices.", "quantifier": "every vertex array and face list", "why_tests_cant": "All meshes. (False for the code when a degenerate face is dropped: positions are not filtered; proved when no face is degenerate; exhibited.)", "anchors": ["tracer/models/triangulated_surface.py: TriangulatedSurface"]}
{"id": "C61", "title": "Spherical lens is closed and has the requested depth", "statement": "The caps of a SphericalLens meet the bounding cylinder along common circles of the given diameter, the apexes of the two faces are `depth` apart, and planar faces may be given for either side.", "quantifier": "every valid diameter, depth, radii, index", "why_tests_cant": "Continuum. (Partly false: a planar front raises NameError, and with a planar back the apexes are depth*(1+1/n) apart; exhibited.)", "anchors": ["tracer/models/spherical_lens.py: SphericalLens"]}
{"id": "C62", "title": "Spherical lens focuses at its focal length", "statement": "focal_length() is the lensmaker's value, and parallel paraxial light coming down the axis is brought to Z = -focal_length().", "quantifier": "every diameter, depth, radii and index", "why_tests_cant": "Continuum. (The placement is false: the paraxial focus is at -f + 2*pd, where pd is the principal-point distance; exhibited.)", "anchors": ["tracer/models/spherical_lens.py: SphericalLens.__init__, focal_length"]}
{"id": "C63", "title": "Minidish measures follow the dimensioning rules", "statement": "standard_minidish_measures gives a dish with a 45 degree rim angle, a receiver whose area is the dish aperture area divided by the concentration, and a receiver distance consistent with the requested number of virtual sources.", "quantifier": "every diameter, concentration and number of virtual sources in range", "why_tests_cant": "Continuum.", "anchors": ["tracer/models/tau_minidish.py: standard_minidish_measures"]}
{"id": "C64", "title": "Meshes lie on the surface and leave no gaps", "statement": "Every mesh point of a geometry manager satisfies the surface's equation and lies in its aperture. With a resolution of so many points per unit length, every point of the surface has a mesh point within the diagonal of a cell whose side is 1/resolution (for dishes, as seen along the axis; for triangles, in barycentric coordinates).", "quantifier": "every size and resolution, each geometry manager with a mesh", "why_tests_cant": "Continuum of sizes and resolutions. (Partly false: round plates, dishes and cylinders may overshoot their edge by a fraction of the resolution, coarse hemispheres may cross the equator; exhibited.)", "anchors": ["tracer/flat_surface.py: mesh", "tracer/sphere_surface.py: mesh", "tracer/paraboloid.py: mesh", "tracer/cylinder.py: mesh", "tracer/triangular_face.py: mesh"]}
{"id": "C65", "title": "Drawn segments connect a ray's start to its end", "statement": "In show_rays every drawn line starts at the vertex of a recorded ray and ends at the vertex of one of its children, or, for a ray without children, at a point escaping_len along its direction.", "quantifier": "every recorded tree, selector and length", "why_tests_cant": "All trees. (False for the code when a ray of zero energy precedes an escaping ray, or with a ray selector; proved when no ray is filtered; exhibited.)", "anchors": ["tracer/mayavi_ui/scene_view.py: show_rays"]}
{"id": "C66", "title": "A trace loses no energy", "statement": "In a scene of mirrors, receivers and refracting surfaces, what the receivers have written down during a trace plus what the rays without children carry equals the energy of the source.", "quantifier": "every scene without ties, every source, number of iterations and minimum energy, any number of receivers", "why_tests_cant": "Whole histories of a trace over unboundedly many rays and surfaces. (False where two surfaces are met at the same parameter: energy is duplicated; exhibited.)", "anchors": ["tracer/tracer_engine.py: ray_tracer", "tracer/optics_callables.py: AbsorptionAccountant, Reflective, RefractiveHomogenous"]}
{"id": "C67", "title": "Receivers hold exactly the hits of the trace", "statement": "After a trace, get_all_hits of a receiver gives, in the order of the trace, for each recorded ray that was propagated and whose nearest surface is the receiver's, the absorbed energy and the point where it hit; it never raises. In scenes whose objects claim rays or skip surfaces, as the package's one-sided receivers do, it gives the same for each ray that goes on to the receiver's surface.", "quantifier": "every scene of per-ray surfaces, with default object policies or any that decide ray by ray, every source and number of iterations", "why_tests_cant": "Depends on the whole history of a trace and on the order of surfaces.", "anchors": ["tracer/tracer_engine.py: ray_tracer", "tracer/optics_callables.py: AbsorptionAccountant"]}
{"id": "C68", "title": "Collectors are laid out around their focus", "statement": "A HomogenizedLocalReceiver has its receiver in the plane Z = receiver_pos facing the reflector, with the four homogenizer walls enclosing the box of the given depth in front of it and the reflector where it was put; in a standard_minidish the entrance of the homogenizer is in the focal plane and axial light is sent by the dish through its centre.", "quantifier": "every receiver dimensions, position, depth, efficiency; every measures in range", "why_tests_cant": "Continuum of dimensions; composition of three levels of frames.", "anchors": ["tracer/models/homogenized_local_receiver.py: HomogenizedLocalReceiver", "tracer/models/tau_minidish.py: MiniDish, standard_minidish", "tracer/models/PETAL_dish.py: PETAL", "tracer/models/one_sided_mirror.py: one_sided_receiver"]}
{"id": "C69", "title": "Radial stagger layouts are staggered and without overlap", "statement": "radial_stagger returns exactly the points on the rings rmin, rmin+r_space, ... below rmax at the angles start, start+az_space/2, ... below end whose ring and angle numbers have the same parity; for a field within one turn no two of them coincide; if it leaves one step of the circle free, two of them are at least two rings apart, or on neighbouring rings half a step apart, or on one ring and a step apart.", "quantifier": "every angular range, radii and spacings", "why_tests_cant": "Continuum of parameters, unbounded number of positions.", "anchors": ["tracer/models/heliostat_field.py: radial_stagger"]}
{"id": "C70", "title": "Moving the whole scene moves the whole trace", "statement": "Moving an assembly rigidly with set_transform on its root and moving the source rays with it gives the moved trace: the returned rays, every bundle of the tree and the hits remembered by receivers are moved, while energies, parents, number of levels and raised exceptions stay the same.", "quantifier": "every rigid motion, every scene of the library's geometry managers and non-random optics, every source, number of iterations and minimum energy", "why_tests_cant": "Continuum of motions, unbounded scenes and iterations.", "anchors": ["tracer/tracer_engine.py: ray_tracer", "tracer/assembly.py: set_transform, transform_children", "tracer/surface.py: register_incoming, select_rays"]}
{"id": "C71", "title": "Energies only scale", "statement": "Multiplying the energies of the source and min_energy by one positive factor multiplies every recorded energy and every absorbed energy by that factor, and changes nothing else in a trace: positions, directions, parents, levels, hits and raised exceptions are the same.", "quantifier": "every positive factor, every scene of the library's geometry managers and optics, every source, number of iterations and minimum energy", "why_tests_cant": "Continuum of factors, unbounded scenes and iterations.", "anchors": ["tracer/tracer_engine.py: ray_tracer", "tracer/optics_callables.py: Reflective, AbsorptionAccountant, RefractiveHomogenous", "tracer/ray_bundle.py: inherit"]}
{"id": "C72", "title": "User-defined properties ride along without influence", "statement": "Extra properties added to a source bundle are inherited by the recorded rays but never influence a trace: changing them changes only them.", "quantifier": "every change of the properties, every scene of the library's geometry managers and optics, every source, number of iterations and minimum energy", "why_tests_cant": "Quantifies over all values of arbitrary properties and over whole traces.", "anchors": ["tracer/ray_bundle.py: RayBundle, inherit", "tracer/tracer_engine.py: ray_tracer"]}
{"id": "C73", "title": "Receivers only watch", "statement": "Replacing a surface's optics by the same optics wrapped in an absorption accountant (or resetting accountants) changes no ray of a trace.", "quantifier": "every scene, any subset of surfaces observed, every source, number of iterations and minimum energy", "why_tests_cant": "All scenes and histories of the recorders.", "anchors": ["tracer/optics_callables.py: AbsorptionAccountant, ReflectiveReceiver", "tracer/tracer_engine.py: ray_tracer"]}
{"id": "C74", "title": "Every recorded ray obeys the law of the surface its parent hit", "statement": "In a recorded tree each ray starts where its parent in the previous bundle meets a surface, and follows from its parent by that surface's law with the surface's own normal there: reflection with the stated loss at mirrors, reflection or Snell refraction with the change of medium at refracting surfaces, a direction on the incoming side at diffuse reflectors. So if the source has unit directions and legal media, so has every recorded ray.", "quantifier": "every scene of the library's geometry managers and optics, every source, number of iterations and minimum energy, every random draw", "why_tests_cant": "Holds along whole trees of unbounded depth, in every scene.", "anchors": ["tracer/tracer_engine.py: ray_tracer", "tracer/optics_callables.py", "tracer/surface.py: register_incoming, select_rays"]}
{"id": "C75", "title": "Legal scenes are traced without an exception", "statement": "ray_tracer on an assembly of the library's components, with at least one surface, legal frames and a source of unit directions in legal media, always returns: no exception is raised in any iteration, whatever the earlier ones produced.", "quantifier": "every scene of the library's geometry managers and optics, every source of legal rays, number of iterations and minimum energy, every random draw", "why_tests_cant": "An exception may need any depth of iterations and any combination of rays in one bundle.", "anchors": ["tracer/tracer_engine.py: intersect_ray, ray_tracer", "tracer/quadric.py: find_intersections, _select_coords", "tracer/sphere_surface.py: HemisphereGM, CutSphereGM", "tracer/optics.py: fresnel"]}
{"id": "C76", "title": "A collector's histogram accounts for all absorbed energy", "statement": "After a trace, histogram_hits(bins) of a collector returns edges that divide the receiver's width and height into equal bins, and in each cell the energy absorbed at hits whose local coordinates are in that cell; every hit on the receiver is in exactly one cell, so the cells sum up to all the energy the receiver absorbed, wherever the collector stands (if it has not been moved since).", "quantifier": "every collector, placement, surroundings, source, depth of the trace, and positive number of bins", "why_tests_cant": "Unbounded traces; hits on cell borders and on the rim of the receiver must be counted once.", "anchors": ["tracer/models/homogenized_local_receiver.py: histogram_hits", "tracer/optics_callables.py: AbsorptionAccountant.get_all_hits", "tracer/surface.py: global_to_local"]}
{"id": "C77", "title": "The assembly tree widget shows every component once and keeps its captions", "statement": "After set_assembly, the tree widget shows exactly one item for the top assembly and for each sub-assembly, object and surface below it, below the item of the component holding it, with its caption tag or, if it has none, its kind and number; captions not set get that default, others are unchanged, and showing the assembly again shows the same. A caption edited by the user is the only thing that is different when the assembly is shown again. (False for the code for the top assembly: its new caption is stored but never shown.)", "quantifier": "every assembly, of any depth and size, tagged or not; every edited item", "why_tests_cant": "Assemblies nest without bound.", "anchors": ["tracer/qt/assembly_tree.py: AssemblyTree, AssemblyTreeItem"]}
{"id": "C78", "title": "External dimensions are those of the bounding cylinder", "statement": "get_external_dimensions() of a MiniDish or PETAL returns the diameter and height of the smallest upright cylinder, from the dish's base to the receiver's surface, that contains every point where a ray can meet the collector (but for the plate 1e-10 behind the receiver's surface), if the receiver fits into the aperture and the rim of the dish and the homogenizer's entrance are between base and receiver. Standard minidishes of concentration at least pi/2 are such collectors.", "quantifier": "every collector with such measures, every ray and bundle (directions within the solver's tolerance of the axis excluded)", "why_tests_cant": "All measures, all points of all surfaces.", "anchors": ["tracer/models/tau_minidish.py: MiniDish.get_external_dimensions, standard_minidish", "tracer/models/PETAL_dish.py: PETAL.get_external_dimensions", "tracer/paraboloid.py: HexagonalParabolicDishGM"]}
{"id": "C79", "title": "Random starts and directions have the documented densities", "statement": "The starts of a solar disk bundle are distributed evenly over the disk: every part of the disk gets the share of rays that is its share of the area. Its directions have the pillbox distribution: projected on the plane across the axis they are evenly spread over the disk of radius sin(ang_range), so that rays of the same energy give the right flux. Rays leaving a diffuse surface obey Lambert's law: projected along the normal they are evenly spread over the unit disk. Each start and direction is a function of its own draw.", "quantifier": "every measurable part of the disk, every axis, radius, angle up to 90 degrees and normal; random numbers uniform on their ranges", "why_tests_cant": "A distribution is a statement about all draws; a test sees a sample.", "anchors": ["tracer/sources.py: pillbox_sunshape_directions, solar_disk_bundle", "tracer/optics_callables.py: LambertianReflector"]}
{"id": "C80", "title": "A scene shows each surface once and one set of ray paths", "statement": "A TracerScene shows, after it is made or its assembly is replaced, one drawing of each surface of the assembly and nothing else; show_assembly() redraws every surface, or those asked for, as they are now and leaves no old drawing behind; update_surfaces() takes away surfaces no longer in the assembly, adds new ones and leaves others alone. There is never more than one set of ray paths, and after set_source() or plot_ray_trace() it is that of the current source, assembly and trace controls.", "quantifier": "every history of calls, with any changes to the surfaces and any exceptions in between", "why_tests_cant": "The drawings depend on the whole history of calls and of changes made between them.", "anchors": ["tracer/mayavi_ui/scene_view.py: TracerScene"]}
{"id": "C81", "title": "The order of construction does not matter", "statement": "The same surfaces give the same trace however they are listed and however they are grouped into objects: each recorded bundle holds the same rays, up to their order and the numbering of parents, and each receiver reports the same hits.", "quantifier": "every two scenes of default objects with the same surfaces, and every reordering of objects that claim rays or restrict which of their surfaces are asked; every source, depth and energy threshold; no condition on where rays meet surfaces", "why_tests_cant": "All scenes and all regroupings of their surfaces.", "anchors": ["tracer/tracer_engine.py: intersect_ray, ray_tracer", "tracer/assembly.py: get_surfaces, get_objects", "tracer/object.py: get_surfaces"]}
{"id": "C82", "title": "Surfaces no ray reaches do not matter", "statement": "Adding surfaces to a scene, in new objects or in old ones, leaves the trace and what receivers report as they are if each ray that sets out misses each of them or meets it only behind another surface.", "quantifier": "every scene of default objects and every set of added surfaces; every scene of objects that restrict which of their surfaces are asked and every set of added objects; every source, depth and energy threshold", "why_tests_cant": "All scenes and additions; the added surfaces are asked about every ray.", "anchors": ["tracer/tracer_engine.py: intersect_ray, ray_tracer"]}
{"id": "C83", "title": "Raising min_energy only prunes", "statement": "Tracing the same source with a higher min_energy gives a part of the rays traced with the lower one; of the rays with more energy than the higher threshold none is missing. (False for the code if a ray after the source meets a surface at a parameter between 1e-10 and 1e-6 and none nearer.)", "quantifier": "every scene of default objects, or of flat mirrors in default and one-sided objects, every source of non-negative energies, depth and pair of thresholds", "why_tests_cant": "All scenes, thresholds and depths; rays interact by the self-hit cutoff.", "anchors": ["tracer/tracer_engine.py: intersect_ray, ray_tracer"]}
{"id": "C84", "title": "A trace follows each ray by itself, through objects that claim rays or leave surfaces out", "statement": "Whatever the objects of a scene decide about rays one by one - which of the rays that left a surface they keep to themselves, and which of their own surfaces are asked about them - the recorded bundles are those obtained by following each ray separately: the ray remembers the surface it left; it goes on to the nearest surface among those it may meet, where a claimed ray may meet only surfaces of the object that claims it and a ray may meet a surface of the object it left only if that object asks it. The numbering of parents and the order of the rays in the bundle have no influence.", "quantifier": "every scene, every per-ray decision of its objects (default, one-sided and user-written), every source, depth and energy threshold", "why_tests_cant": "The engine keeps ownership and relevancy in arrays indexed by ray and surface, rebuilt in each iteration; tests see few combinations of surfaces, claims and depths.", "anchors": ["tracer/tracer_engine.py: intersect_ray, ray_tracer", "tracer/object.py: own_rays, surfaces_for_next_iteration", "tracer/models/one_sided_mirror.py"]}
{"id": "C85", "title": "A heliostat field delivers the light of the sun to its receiver", "statement": "A plant of a HeliostatField and a one_sided_receiver at its aim point, built, aimed by aim_to_sun() (after any earlier calls of aim_to_sun and set_aim_height) and traced with rays from the sun through the centres of the heliostats: each ray is reflected at the centre of its heliostat toward the receiver with what the heliostat does not absorb, ends at the receiver's centre, and get_all_hits() reports exactly these energies and that point; nothing else is recorded. It is enough that no heliostat and neither side of the receiver is in the way; a field laid out by radial_stagger as in the example meets that for every sun above the horizon.", "quantifier": "every list of positions, dimensions, absorptivity, tower height, receiver placement and sun for which nothing is in the way; every history of aiming; every depth of at least two, every threshold below what heliostats leave", "why_tests_cant": "All fields, suns and histories; the trace depends on the self-hit cutoff over all rays, on two plates 1e-10 apart and on the objects' choice of surfaces.", "anchors": ["tracer/models/heliostat_field.py: HeliostatField", "tracer/models/one_sided_mirror.py: one_sided_receiver", "tracer/tracer_engine.py: ray_tracer", "examples/tower_gui.py: gen_rays, gen_plant, aim_field"]}
{"id": "C86", "title": "A homogenizer is a kaleidoscope that brings every ray to the receiver", "statement": "A ray that enters the rect_homogenizer of a HomogenizedLocalReceiver is reflected by its walls until it arrives at the receiver at its end. It arrives where its straight continuation crosses the receiver's plane, folded back through the mirror images of the tube's cross-section, after as many reflections as there are mirrors between, and with the energy that so many reflections leave; get_all_hits() reports exactly these points and energies. For a MiniDish, a PETAL and a standard_minidish, this holds of the rays that come down along the axis beside the receiver and are sent by the dish through the focus into the homogenizer.", "quantifier": "every size, depth and optical efficiency of homogenizer, receiver position and mirror; every bundle of rays that enter the tube and do not graze its edges within the engine's tolerances, with any number of reflections; every depth of trace and energy threshold that suffice", "why_tests_cant": "The number of reflections is not bounded, each depends on the engine's masks and its self-hit cutoff, and the pattern changes with every dimension.", "anchors": ["tracer/models/homogenizer.py: rect_homogenizer", "tracer/models/homogenized_local_receiver.py: HomogenizedLocalReceiver", "tracer/models/tau_minidish.py: MiniDish, standard_minidish", "tracer/models/PETAL_dish.py: PETAL", "tracer/tracer_engine.py: ray_tracer"]}
{"id": "C87", "title": "A pane of glass splits light as the textbook says", "statement": "Light that falls on an object of two parallel RectPlateGM faces with RefractiveHomogenous optics is recorded, in every generation of the trace, as exactly two rays for each source ray: one on its way through the pane, along the zigzag between the faces in the direction Snell's law gives or its mirror image, and one that has left it, parallel to the source ray below the pane and to its mirror image above it. Their energies are those of repeated Fresnel reflection: E(1-R)R^(k-1) inside, E R for the first reflection and E(1-R)^2 R^(k-2) outside. Added up over longer and longer traces, (1-R)/(1+R) of the light passes and 2R/(1+R) comes back.", "quantifier": "every size and thickness of the pane, its placement by any rigid transform, any two different refractive indices; every bundle of rays that come down on it from the first medium and cross its faces on the plates, not within the engine's tolerances of grazing; every depth of trace and energy threshold", "why_tests_cant": "The number of internal reflections is not bounded and each depends on the self-hit cutoff of the engine, the toggle of the index, Fresnel's formulas on both sides of the face and the masks for all rays of the bundle.", "anchors": ["tracer/optics_callables.py: RefractiveHomogenous", "tracer/optics.py: refractions, fresnel, reflections", "tracer/flat_surface.py: RectPlateGM", "tracer/tracer_engine.py: ray_tracer", "tracer/assembly.py: Assembly", "tracer/object.py: AssembledObject"]}
{"id": "C88", "title": "Light paths can be reversed", "statement": "If light goes from one point to another by way of flat mirrors and flat refracting surfaces, then light sent back from the second point along the last leg returns to the first: by the same surfaces in the opposite order, in the opposite directions and through the same media. The fraction of the energy that goes along the path is the same both ways, whatever the two rays started with. Traces from either end record the path, each after as many generations as it has turns, if what is left of the energy is above the threshold.", "quantifier": "every scene of default objects with flat, rectangular, round and triangular surfaces placed by rigid transforms, that are mirrors, one-sided mirrors, receivers or refracting surfaces between two given media; every path of any number of turns; every source that contains the ray, every depth that suffices and threshold that is not negative", "why_tests_cant": "The number of turns is not bounded and the way back is another trace with another source; it joins reflection, refraction, total reflection, Fresnel's formulas, the toggle of the index and the self-hit cutoff of the engine.", "anchors": ["tracer/optics_callables.py: Reflective, AbsorberReflector, RefractiveHomogenous, AbsorptionAccountant", "tracer/optics.py: refractions, fresnel, reflections", "tracer/flat_surface.py: FlatGeometryManager, RectPlateGM, RoundPlateGM", "tracer/triangular_face.py: TriangularFace", "tracer/tracer_engine.py: ray_tracer"]}
{"id": "C89", "title": "Flat mirrors show images, and a corner of mirrors sends light back", "statement": "A ray recorded by a trace through flat mirrors after k reflections comes in a straight line from the image of its source point in the planes of k mirrors of the scene, one after the other, and goes in the direction of the source ray turned by the same mirrors. Among any number of mirrors that lie in three perpendicular planes no ray is reflected more than three times, and one that is goes back parallel to the direction it came in, as if from the source point reflected in the corner. Two mirrors turn a ray in the plane of their normals by twice the angle between them, whatever its direction and wherever it meets them.", "quantifier": "every scene of flat, rectangular, round and triangular mirrors, one-sided mirrors and receivers, placed anywhere; every source, depth and energy threshold; for the corner and the pair of mirrors, any number of plates in those planes", "why_tests_cant": "The number of reflections is not bounded and depends on all placements; each one depends on the self-hit cutoff and the masks of the engine.", "anchors": ["tracer/tracer_engine.py: ray_tracer", "tracer/flat_surface.py: FlatGeometryManager, RectPlateGM, RoundPlateGM", "tracer/triangular_face.py: TriangularFace", "tracer/optics.py: reflections", "tracer/optics_callables.py: Reflective, AbsorberReflector"]}
{"id": "C90", "title": "A hollow sphere keeps its light and is black in the end", "statement": "Light from a source inside a sphere with Reflective or ReflectiveReceiver optics is recorded, in every generation of the trace, as exactly one ray for each source ray still above the threshold. It begins where the sphere has been met, with the energy E(1-a)^k, and goes to the next such place; these places follow from the first by turning it about the centre, in the plane of the source ray and the centre, by the same angle each time. No ray leaves the sphere. The receiver reports each of these places with the energy E(1-a)^k a absorbed there, E(1-(1-a)^n) in all after n reflections, which comes as near to all of the light as one likes.", "quantifier": "every radius, placement by a rigid transform and absorptivity; every bundle of rays of unit direction that begin in the closed ball, further than 1e-6 from where they meet the wall; every depth of trace and energy threshold", "why_tests_cant": "The number of reflections is not bounded; each depends on which of the two intersections the geometry manager selects, on the normal it reports on the inner side and on the self-hit cutoff of the engine, as the ray begins on the surface it meets next.", "anchors": ["tracer/sphere_surface.py: SphericalGM", "tracer/quadric.py: QuadricGM", "tracer/optics_callables.py: Reflective, ReflectiveReceiver, AbsorptionAccountant", "tracer/optics.py: reflections", "tracer/tracer_engine.py: ray_tracer"]}
{"id": "C91", "title": "Light in a round pipe turns about the axis at a constant pitch and leaves at the ends", "statement": "Light from a source inside a cylinder with Reflective or ReflectiveReceiver optics meets the wall at places that, seen along the axis, are turned about it by the same angle each time, and that are the same distance apart along it. Every reflected ray has the same angle with the axis and the energy E(1-a)^k. An infinite cylinder is traced as exactly these rays, in every generation, as long as they are above the threshold. In a cylinder of finite height, generation k holds the rays whose reflections so far were all within half the height of the middle, and nothing else; every ray that moves along the axis is reflected a certain number of times and then leaves for good. The receiver reports each reflection at its place with the energy absorbed there.", "quantifier": "every diameter, height, placement by a rigid transform and absorptivity; every bundle of rays of unit direction that begin inside, further than 1e-6 from where they meet the wall, and are not all but parallel to the axis (squared crosswise part over 1e-10); every depth of trace and energy threshold", "why_tests_cant": "The number of reflections is not bounded; each depends on which of two intersections the geometry manager selects, on its cut at the ends, on the normal it reports on the inner side and on the self-hit cutoff of the engine.", "anchors": ["tracer/cylinder.py: InfiniteCylinder, FiniteCylinder", "tracer/quadric.py: QuadricGM", "tracer/optics_callables.py: Reflective, ReflectiveReceiver, AbsorptionAccountant", "tracer/optics.py: reflections", "tracer/tracer_engine.py: ray_tracer"]}
{"id": "C92", "title": "Light and a ball of glass: what is thrown off, what goes round inside and what gets out", "statement": "A sphere with RefractiveHomogenous optics on which light falls from outside is traced without an exception, whichever way round the two indices are given. The first generation holds, for each ray, the part thrown off and the part that enters; every later one what has been reflected inside once more and what gets out there, as long as what is inside is above the threshold, and nothing else: what has been thrown off or has got out never meets the ball again. The moment about the centre times the refractive index is the same for all of them; light that has entered is never totally reflected; the k-th part to get out is turned aside by 2(i - r) + k(pi - 2r), where i and r are the angles of Snell's law; and the energies thrown off, let out so far and still inside add up to that of the source. For a source inside, generations are likewise known; beyond the critical angle all the light stays inside with its energy, for ever.", "quantifier": "every radius, placement by a rigid transform and two different positive indices, in both orders; every bundle of rays of unit direction outside that meet the ball and enter it (further than 1e-6 away and more than 1e-6 to go inside), or that begin inside further than 1e-6 from the wall; every depth of trace and energy threshold", "why_tests_cant": "The number of reflections is not bounded and each divides the light; every part depends on which of the two intersections is selected, on the side of the normal, on which index is taken for which side, and on the engine's cutoff, as the parts begin on the surface that they meet next or must not meet again.", "anchors": ["tracer/sphere_surface.py: SphericalGM", "tracer/quadric.py: QuadricGM", "tracer/optics_callables.py: RefractiveHomogenous", "tracer/optics.py: refractions, reflections, fresnel", "tracer/tracer_engine.py: ray_tracer"]}
{"id": "C93", "title": "Light in a rod of glass: what is guided and what gets out", "statement": "A cylinder with RefractiveHomogenous optics, infinite or of finite length, with a source inside is traced without an exception, whichever way round the two indices are given. Wherever the light meets the wall it makes the same angle with the normal. Each generation holds what has been reflected once more, on the helix of C91, and, if the light is not beyond the critical angle, what gets out there by Snell's law, as long as what is inside is above the threshold, and nothing else: what has got out never meets the rod again, and in a rod of finite length all that comes past an end has left it. What has got out and what is still inside add up to the energy of the source. Light at the angle t with the axis is guided if n1 sin(t) < sqrt(n1^2 - n2^2), whether or not it meets the axis, and if it meets the axis only then; so is light that comes through a flat end within the numerical aperture sqrt(n1^2 - n2^2). Guided light keeps all its energy, for ever.", "quantifier": "every diameter, length, placement by a rigid transform and two different positive indices, in both orders; every bundle of rays of unit direction that begin inside further than 1e-6 from where they meet the wall and that are not, nor what gets out of them, within 1e-10 of being parallel to the axis; every depth of trace and energy threshold", "why_tests_cant": "The number of reflections is not bounded and each may divide the light; whether one is total, which intersection is selected, which index is taken for which side and the engine's cutoff all have to be right every time.", "anchors": ["tracer/cylinder.py: InfiniteCylinder, FiniteCylinder", "tracer/quadric.py: QuadricGM", "tracer/optics_callables.py: RefractiveHomogenous", "tracer/optics.py: refractions, reflections, fresnel", "tracer/tracer_engine.py: ray_tracer"]}
{"id": "C94", "title": "A profile drawn along a direction keeps the ray's component along it", "statement": "In a system of mirrors, refracting surfaces and receivers that are flat and contain a direction u, or are cylinders along u (troughs, prisms, fibres, light guides), the refractive index times the component of the ray's direction along u is the same for every recorded ray and its parent, and so for it and its ancestor in the source. So no ray comes into a medium whose index is smaller than that component times the index of the source.", "quantifier": "every such scene with any number of surfaces, media and placements; every source of unit directions; every depth of trace and energy threshold; mirrors also for rays without a refractive index", "why_tests_cant": "It must hold after any number of reflections and refractions in any order, however the light is divided.", "anchors": ["tracer/optics.py: refractions, reflections", "tracer/optics_callables.py: RefractiveHomogenous, Reflective, AbsorberReflector", "tracer/flat_surface.py", "tracer/cylinder.py", "tracer/tracer_engine.py: ray_tracer"]}
{"id": "C95", "title": "A system with an axis keeps the skewness of rays", "statement": "In a system of mirrors, refracting surfaces and receivers with a common axis (flat ones perpendicular to it, spheres, hemispheres and cut spheres centred on it, dishes, paraboloids and cylinders about it), the refractive index times the moment of the ray's direction about the axis is the same for every recorded ray and its parent, and so for it and its ancestor in the source. So a ray in a medium of index n nowhere comes nearer to the axis than its source's skewness divided by n.", "quantifier": "every such scene with any number of surfaces, media and positions along the axis; every source of unit directions; every depth of trace and energy threshold; mirrors also for rays without a refractive index", "why_tests_cant": "It must hold after any number of reflections and refractions in any order, however the light is divided.", "anchors": ["tracer/optics.py: refractions, reflections", "tracer/optics_callables.py: RefractiveHomogenous, Reflective, AbsorberReflector", "tracer/sphere_surface.py", "tracer/paraboloid.py", "tracer/cylinder.py", "tracer/flat_surface.py", "tracer/tracer_engine.py: ray_tracer"]}
{"id": "C96", "title": "A stack of parallel layers keeps n sin(theta)", "statement": "In a stack of parallel flat mirrors, refracting surfaces and receivers, the refractive index times the part of the ray's direction along the layers is the same vector for every recorded ray and its parent, and so for it and its ancestor in the source. A descendant in the medium of the source goes in the source's direction or in that direction mirrored in the layers, and no ray comes into a layer whose index is smaller than the source's n sin(theta).", "quantifier": "every number of layers, media, order, distances and apertures; every source of unit directions; every depth of trace and energy threshold", "why_tests_cant": "It must hold after any number of reflections and refractions in any order, however the light is divided.", "anchors": ["tracer/optics.py: refractions, reflections", "tracer/optics_callables.py: RefractiveHomogenous, Reflective, AbsorberReflector", "tracer/flat_surface.py: FlatGeometryManager, RectPlateGM, RoundPlateGM", "tracer/triangular_face.py: TriangularFace", "tracer/tracer_engine.py: ray_tracer"]}
{"id": "C97", "title": "Light takes the shortest path (Fermat)", "statement": "In a scene of flat mirrors, refracting surfaces and receivers, follow any recorded ray back to the source by its parents. The optical length (length times refractive index) of that path, from where the source ray begins to any point of the recorded ray, is the smallest among all paths from the one to the other that visit the planes of the same surfaces in the same order. With curved surfaces the same is true of the tangent planes at the points that were hit, so the path is stationary.", "quantifier": "every scene of any number of surfaces, media and placements; every source of unit directions; every recorded ray of every depth and every choice of other points on the planes; mirrors also for rays without a refractive index", "why_tests_cant": "It compares the recorded path, of any number of reflections and refractions, with all other paths; it holds only if every direction, index, parent and starting point along it is right.", "anchors": ["tracer/optics.py: refractions, reflections", "tracer/optics_callables.py: RefractiveHomogenous, Reflective, AbsorberReflector", "tracer/flat_surface.py", "tracer/triangular_face.py: TriangularFace", "tracer/tracer_engine.py: ray_tracer", "tracer/trace_tree.py: RayTree"]}
{"id": "C98", "title": "Rounding errors do not bring a ray back to the mirror it leaves", "statement": "With floating-point arithmetic of relative error u in every operation, every recorded ray is, up to the errors of the operations on the way, what a mirror makes of its parent; and in a scene of flat mirrors whose coordinates, and whose distance between hits, are at most L, a ray that meets a mirror with a cosine of at least c never meets the same mirror again in the next generation, if 144 u L is at most c * 1e-10 (for double precision: L up to 6000 c). False for the code in larger scenes: the tolerance of 1e-10 is absolute, and a mirror 800 m away, in millimetres, lets light through.", "quantifier": "every scene of flat mirrors of any number, placement and absorptivity, with or without apertures; every rounding function of relative error u, in any order of additions, with or without fused operations; every ray of every depth", "why_tests_cant": "Tests try a few rays; whether the rounding errors of one of millions of rays exceed the fixed tolerance depends on its coordinates, and a mirror that leaks one ray in a thousand passes.", "anchors": ["tracer/tracer_engine.py: intersect_ray, ray_tracer", "tracer/flat_surface.py: FlatGeometryManager.find_intersections, select_rays, get_normals", "tracer/optics.py: reflections", "tracer/optics_callables.py: Reflective"]}
{"id": "C99", "title": "How large the rounding errors of a trace of mirrors can be", "statement": "With floating-point arithmetic of relative error u in every operation, in a scene of flat mirrors: the computed parameter of a hit differs from the exact one by at most 34 u L / c and the computed point by at most 3.4 u L + 39 u L / c in each coordinate, where L bounds the coordinates and c is the cosine of incidence; a plane that is ahead by more than these errors is found; after k reflections the squared length of a direction has changed by a factor between (1 - e)^k and (1 + e)^k, where e = 5 nu + 260 u and nu is the error of the length of the normals; and the energy is, up to factors between (1 - u)^(2k) and (1 + u)^(2k), that of the source ray times the reflectivities.", "quantifier": "every scene of flat mirrors of any number, placement and absorptivity; every rounding function of relative error u; every ray of every depth", "why_tests_cant": "Error bounds must hold for all inputs and all depths; directions are never normalised again, so that errors accumulate with every reflection.", "anchors": ["tracer/tracer_engine.py: ray_tracer", "tracer/flat_surface.py: FlatGeometryManager.find_intersections, select_rays", "tracer/optics.py: reflections", "tracer/optics_callables.py: Reflective"]}
{"id": "C100", "title": "A hollow sphere keeps its light, also when the numbers are rounded", "statement": "Computed in floating-point arithmetic, light in a hollow spherical mirror is reflected again and again, as it is with exact numbers: a ray that starts on or in the sphere and goes inwards is found to meet the farther side of it, and its reflection is recorded.", "quantifier": "every radius, placement, absorptivity, number of reflections and ray inside the sphere; every binary arithmetic with correct rounding, double precision in particular", "why_tests_cant": "Whether light is lost depends on the last bit of computed hit points; tests use round numbers, for which the errors cancel.", "anchors": ["tracer/sphere_surface.py: SphericalGM", "tracer/quadric.py: QuadricGM.find_intersections, QuadricGM._select_coords", "tracer/optics.py: reflections", "tracer/tracer_engine.py: intersect_ray"]}
{"id": "C101", "title": "Receivers never report more energy than the source carried", "statement": "After a trace, what the receivers of a scene report as absorbed since their last reset, together with the energy of the rays that ended without descendants, is not more than the energy of the source.", "quantifier": "every scene of library shapes, with mirrors, refractive surfaces, absorbers and any number of receivers, every source of non-negative energies, number of repetitions and minimal energy", "why_tests_cant": "Energy may be counted twice at any surface at any depth of the recursion, depending on how rays are distributed among surfaces; tests look at one receiver and one reflection.", "anchors": ["tracer/optics_callables.py: AbsorptionAccountant, ReflectiveReceiver, LambertianReceiver", "tracer/tracer_engine.py: TracerEngine.ray_tracer, TracerEngine.intersect_ray"]}
{"id": "C102", "title": "The dish example shows all the energy its receiver absorbed", "statement": "test_case(focus, num_rays, h_depth, side) with positive options and at least one ray ends normally whatever is drawn at random; the plotted 50 by 50 picture, cell by cell times the cell area and 1000 W/m2, adds up to exactly what the receiver reports as absorbed, and on average it shows no more suns than the sun's disk has receiver areas. A non-positive side or depth raises ValueError, no rays ZeroDivisionError.", "quantifier": "every focal length, homogenizer depth, receiver side, number of rays and every outcome of the random generator", "why_tests_cant": "The program is a Monte Carlo run: each test sees one outcome of the random draws and one set of options, and a hit on the edge of a cell or of the receiver is rare.", "anchors": ["examples/test_case.py: test_case", "tracer/models/tau_minidish.py: MiniDish", "tracer/models/homogenized_local_receiver.py: HomogenizedLocalReceiver.histogram_hits", "tracer/sources.py: solar_disk_bundle"]}
{"id": "C103", "title": "A collector that follows the sun works the same wherever it points", "statement": "Take a MiniDish or PETAL collector, set its transform to any sequence of values and finally to a rigid T, and move the rays by T as well. The trace is the one of the collector as it was built, moved by T; its receiver, if it was cleared before, absorbs the same energies at the moved places, and histogram_hits returns the same picture. Nothing is left of the transforms it had before.", "quantifier": "every collector of the two kinds, every sequence of earlier transforms, every rigid final transform, every bundle, number of iterations and minimal energy", "why_tests_cant": "A test compares a few positions and a few rays; that no position, no earlier history and no number of reflections makes a difference is not visible from samples.", "anchors": ["tracer/assembly.py: Assembly.set_transform, Assembly.transform_children", "tracer/models/tau_minidish.py: MiniDish", "tracer/models/PETAL_dish.py: PETAL", "tracer/models/homogenized_local_receiver.py: HomogenizedLocalReceiver.histogram_hits"]}
{"id": "C104", "title": "The dish window opens for the dishes that can be built, and draws the paths the rays take", "statement": "The dish window (examples/parabolic_dish_gui.py) opens, or is redrawn, exactly when the concentration is positive, the number of edge reflections exceeds -1, and the homogenizer is less wide than the dish's diameter over one more than that number; other numbers raise ZeroDivisionError or ValueError. With less than 20000 rays, whatever the random generator draws, the lines are exactly those from every ray to its children, and the unit segments of the rays that escape; a line begins at every point where the sun's rays start. With 20000 rays or more each ray falls below the minimal energy of the window, and none is followed beyond the first surface it meets.", "quantifier": "all numbers in the form, every number of rays and all random draws", "why_tests_cant": "The picture is random and drawn by a library; whether a line is missing or joins the wrong points for some draw cannot be seen by sampling.", "anchors": ["examples/parabolic_dish_gui.py: DishScene.create_dish_source, recreate_dish", "tracer/mayavi_ui/scene_view.py: TracerScene.__init__, plot_ray_trace, show_rays", "tracer/models/tau_minidish.py: standard_minidish", "tracer/sources.py: solar_disk_bundle"]}
{"id": "C105", "title": "A standard minidish keeps the light that its dimensions promise", "statement": "Let a standard minidish point at the sun, in any pose and after any earlier poses. Every ray along its axis that passes beside the receiver and is reflected by the dish into the homogenizer is absorbed on the receiver's square, after at most sqrt(2)*H/W + 1 reflections in the homogenizer of length H and width W. The receiver reports one hit per ray, their energies are together at most dish_opt_eff times that of the rays, at least that times homog_opt_eff to the power of this bound, and exactly dish_opt_eff times it for perfect walls.", "quantifier": "every diameter, concentration, number of virtual sources and both efficiencies in range, every pose and bundle of such rays", "why_tests_cant": "The number of reflections depends on where a ray falls on the dish; a test sees some rays only.", "anchors": ["tracer/models/tau_minidish.py: standard_minidish, standard_minidish_measures, MiniDish", "tracer/models/homogenizer.py: rect_homogenizer", "tracer/models/homogenized_local_receiver.py: HomogenizedLocalReceiver"]}
{"id": "C106", "title": "The window with two mirrors shows the paths of its two rays", "statement": "Wherever the sliders of the example window put the source, the window opens and shows exactly the lines from each recorded ray to its children and a line of length 1 for every ray that was not absorbed and has none. In front of both mirrors, where they reach both rays, each ray is reflected by one mirror and then by the other, and the window shows exactly the six lines of these paths. Behind the leaning mirror it shows one ray escaping and the other ending on the mirror's back.", "quantifier": "every position of the sliders; for the paths every position in the named regions, up to the engine's tolerances", "why_tests_cant": "The sliders move continuously; a test tries some positions.", "anchors": ["examples/gui.py: ExampleScene", "tracer/mayavi_ui/scene_view.py: TracerScene", "tracer/models/one_sided_mirror.py: rect_one_sided_mirror"]}
{"id": "C107", "title": "The window with the solar tower shows the light on its way to the tower, whatever was done before", "statement": "With distances that are not zero the window of the tower example opens, and no history of moving the sun, changing the distances between the heliostats and asking for flux maps raises an exception. After any such history the window shows exactly the lines from each recorded ray to its children, and a line of length 1 for every ray that was not absorbed and has none, of rays from where the sun now is to where the heliostats now are. With the default distances or larger ones every heliostat sends its ray to the middle of the receiver. A flux map has 50 by 50 cells that sum to what the receiver absorbed of the 1000 rays per heliostat of this map, and of no earlier rays.", "quantifier": "every list of events in the window with values in the ranges of the form, every state of the receiver's memory, all random draws", "why_tests_cant": "What is shown depends on everything done before: aims are set on top of aims, and the receiver's memory is shared by all traces.", "anchors": ["examples/tower_gui.py: TowerScene", "tracer/mayavi_ui/scene_view.py: TracerScene", "tracer/models/heliostat_field.py: HeliostatField, radial_stagger, solar_vector", "tracer/models/one_sided_mirror.py: one_sided_receiver"]}
{"id": "C108", "title": "A trace can be stopped and taken up again", "statement": "For an assembly whose objects neither claim rays nor leave surfaces out of the next iteration, or only surfaces that could not have been met (C109), as in the collectors and towers of the package: one call of ray_tracer with n + m iterations gives what two calls give, the first with n iterations and the second, with m, from the rays of the last recorded bundle that are above min_energy. The bundles in the tree are the same, with the same parents (the second call's source not listed twice), the returned arrays are the same, receivers and generators of random numbers end in the same state, and if the second call raises, the one call raises the same. A trace that has ended before its last iteration, or raised, does the same with any larger number of iterations. The restriction on the objects and the selection of the strong rays are needed.", "quantifier": "all scenes with default policies, all surfaces and optics with any memory, all source bundles, all numbers n and m of iterations, all thresholds", "why_tests_cant": "A test can only stop a few traces at a few iterations; the claim is about what the engine carries from one iteration to the next in every trace.", "anchors": ["tracer/tracer_engine.py: TracerEngine.ray_tracer", "tracer/object.py: AssembledObject.own_rays, surfaces_for_next_iteration"]}
{"id": "C109", "title": "Leaving out the surfaces just left only saves work", "statement": "One-sided mirrors and receivers tell the engine to leave their own surfaces out of the next iteration. In an assembly of reflecting and refracting surfaces whose objects have the default policies, or are one-sided mirrors of one flat surface, or receivers that absorb everything, this changes nothing: the trace gives the same tree, ray by ray and number by number, the same returned arrays, the same memory of the receivers and the same exceptions as with default policies everywhere. The collectors of the package and the heliostat field with its tower, after any history of aims, are such assemblies, so their traces can be stopped and taken up again. The restriction is needed: an object of two facing plates with this policy lets light through, and so does one_sided_receiver with an absorptivity below 1 for a grazing ray from between its plates.", "quantifier": "all such assemblies, all placements, all source bundles, all states of the receivers, all numbers of iterations, all thresholds >= 0; in general, all objects that claim or leave out only what could not be met", "why_tests_cant": "A test compares two traces of one scene; the claim compares the traces of every scene, bundle and iteration.", "anchors": ["tracer/models/one_sided_mirror.py: surfaces_for_next_iteration, rect_one_sided_mirror, one_sided_receiver", "tracer/object.py: AssembledObject.surfaces_for_next_iteration, own_rays", "tracer/tracer_engine.py: TracerEngine.intersect_ray, ray_tracer"]}
{"id": "C110", "title": "Whole numbers may be given as integers", "statement": "It makes no difference whether a whole number is given as an integer or as a float: refractive indices, the dimensions of a lens, the numbers of Hartmann's equation, the spacing of a stagger, the positions of heliostats, and transforms. (False: under Python 2 and NumPy it does make a difference in each of these places. What is proved is exactly when it does, and what happens then. A lens is right if its depth, index or first radius is a float; if all are integers, just if the division of the thickness term leaves no rest, and otherwise, for usual proportions, it gets the power of a lens without thickness. Rays whose index is a float are refracted rightly and keep float indices; with integer indices everywhere, light never leaves the denser medium except at right angles, and enters it in the wrong direction unless the ratio is whole. A field of heliostats at integer positions cannot be aimed since NumPy 1.10; before that, heliostats were turned to the sun itself unless their direction to the aim point was along an axis. After set_transform with an array of integers, a location that is not whole is rounded and a rotation that is not by right angles flattens the component, while get_location and get_rotation return what was set.)", "quantifier": "all numbers, given as integers or floats; all ray directions and normals; all positions of the sun; all transforms", "why_tests_cant": "The repository's tests give floats or lucky integers, and pass. Which combinations of integers are safe is a statement about all of them.", "anchors": ["tracer/models/spherical_lens.py: SphericalLens.__init__", "tracer/optics.py: refractions, fresnel, refr_idx_hartmann", "tracer/optics_callables.py: RefractiveHomogenous.toggle_ref_idx", "tracer/models/heliostat_field.py: HeliostatField.aim_to_sun, radial_stagger", "tracer/has_frame.py: HasFrame.set_transform, set_location, set_rotation"]}
{"id": "C111", "title": "Surfaces may share a geometry manager, and a component may be used twice", "statement": "Several surfaces may be given the same geometry manager object, and the same surface or object may be placed in a scene more than once; a trace then gives the result it gives when every surface has a manager of its own. (False: the managers keep the state of an iteration. What is proved: without sharing, the results are those of the engine on independent surfaces, wherever the attributes are in memory. With sharing, whenever a ray is to leave a surface whose manager also serves a surface earlier in the list, the trace raises; so it does whenever a source ray first meets a surface that is listed twice. When the surface hit is the earlier one nothing is raised and the hit points are those of the later surface.)", "quantifier": "all scenes and ways of sharing surfaces and managers, all bundles, all managers of the package, all energies and numbers of iterations, all states left by earlier traces", "why_tests_cant": "The repository's tests give every surface a new manager and list it once.", "anchors": ["tracer/tracer_engine.py: TracerEngine.ray_tracer, intersect_ray", "tracer/surface.py: Surface", "tracer/geometry_manager.py: GeometryManager.done", "tracer/flat_surface.py: FlatGeometryManager, FiniteFlatGM", "tracer/quadric.py: QuadricGM"]}
{"id": "C112", "title": "A component may be in several places of an assembly", "statement": "The same object or assembly may be added several times, to one assembly or to several; each occurrence is then at the place given when it was added. Lists given to the constructor and lists returned by the methods may be changed by the caller without effect on the assembly. (False: a component has one transform and its surfaces one frame. What is proved: after every change each surface below an assembly is where the transforms along one of the ways down to it put it, and nothing else moves; if there is only one way this is its place. An object added twice is listed twice, both times at the place given last; an object added to a second assembly leaves its place in the first. Adding an assembly to itself or to one below it raises, and an assembly that contains itself can neither be moved nor traced; otherwise calls raise just if assemblies are nested as deeply as the recursion limit. Two assemblies made from one list share additions; get_objects of an assembly without sub-assemblies, and get_surfaces of one with a single object, return the list of the assembly or object itself.)", "quantifier": "all graphs of assemblies, objects, surfaces and lists, with any sharing; all transforms; all recursion limits", "why_tests_cant": "Sharing is a matter of the graph of references; the repository's tests use every component once.", "anchors": ["tracer/assembly.py: Assembly.add_object, add_assembly, set_transform, transform_children, get_objects, get_surfaces", "tracer/object.py: AssembledObject.transform_children, get_surfaces", "tracer/has_frame.py: HasFrame.transform_frame"]}
{"id": "C113", "title": "With more rays the result converges to the power that falls on the receiver", "statement": "A scene of mirrors and receivers is traced with n rays drawn independently from a source, each with 1/n of the source's power. As n grows, the energies that get_all_hits of a receiver returns add up, with probability 1, to a number that converges to the power the source sends to that receiver in the given number of iterations; for every n the expected result is that power; and the probability of an error of more than epsilon is at most the variance for one ray divided by n epsilon squared. The same holds if each energy is weighted according to the place that is returned with it, so every cell of a flux map converges. In particular a rectangular or round plate that absorbs a share a of the light, alone in a parallel beam of solar_disk_bundle that covers it, reports in the limit for each part of it a times flux times the area of the part times the cosine of the angle of incidence. This holds as well for a sun that is not a point (ang_range > 0), with the angle between the plate and the axis, if all directions fall on the same side of the plate and the disk of the source covers the plate along each of them. (False if min_energy is kept fixed: with more rays each becomes weaker, and once no ray carries more than min_energy everything that would reach the receiver by reflection is lost. Proved with min_energy divided by n.)", "quantifier": "all scenes of flat and curved mirrors and receivers of the package, all sources whose rays depend measurably on independent, identically distributed draws, all numbers of rays and iterations, almost all sequences of draws", "why_tests_cant": "A test runs one seed with one number of rays; convergence is about all sequences of draws and all numbers of rays.", "anchors": ["tracer/tracer_engine.py: TracerEngine.ray_tracer", "tracer/sources.py: solar_disk_bundle, pillbox_sunshape_directions", "tracer/optics_callables.py: AbsorptionAccountant.get_all_hits", "tracer/flat_surface.py: RectPlateGM"]}
{"id": "C114", "title": "What the iteration limit and the energy threshold cost", "statement": "A scene of mirrors and receivers is traced. A higher min_energy makes what a receiver reports smaller, by at most min_energy for each ray of the source; more iterations make it greater, by at most the energy of the source times rho to the power of the smaller number of iterations, if no surface returns more than the share rho of the energy of a ray. So if rho < 1 the results converge as iterations are added, and the distance from the limit is known. The same holds for every cell of a flux map, and the power that C113 converges to with the threshold m/n differs by at most m from the power without a threshold. (Needs that no ray has two nearest surfaces at once: such a ray is doubled.)", "quantifier": "all scenes of flat and curved mirrors and receivers of the package with absorptivities from 0 to 1, all bundles of rays with energies of at least 0, all thresholds and numbers of iterations", "why_tests_cant": "A test compares two runs of one scene; how much is lost at most must hold for all scenes, thresholds and iteration limits.", "anchors": ["tracer/tracer_engine.py: TracerEngine.ray_tracer", "tracer/optics_callables.py: Reflective, AbsorberReflector, AbsorptionAccountant", "tracer/flat_surface.py: FlatGeometryManager"]}
{"id": "C115", "title": "A hollow sphere that is white inside spreads light evenly", "statement": "Rays begin inside a sphere whose wall is a LambertianReceiver of absorptivity a, and random numbers are independent and evenly spread. The receiver reports the place that each ray meets first, and then, ray by ray and reflection by reflection, places that are independent of each other and spread evenly over the sphere, wherever the rays began: for every list of parts of the sphere the probability that the places are in them is the product of their shares of the area. The energies reported for the k-th places are a (1-a)^k times those of the rays. This is the principle of the integrating sphere. The only exceptions are rays sent on along the wall within 1e-6 (the tolerance of the engine), which have a probability of at most (1e-6/2R)^2 for each ray and reflection. The share of a zone between parallel planes is its height over the diameter, so a sphere of radius R is covered evenly in every direction. What a part of the wall is reported to have absorbed deviates by more than e from its share of the energy reported for all places after the first with a probability of at most the sum of the squares of the reported energies, over 4 e^2, apart from the exceptions.", "quantifier": "all spheres and rigid frames, all absorptivities, all bundles of rays that begin inside at least 1e-6 from the wall in their direction, all numbers of iterations, all thresholds below the energies that are left, all measurable parts of the sphere, all probability spaces with independent evenly spread numbers", "why_tests_cant": "The claim is about the joint distribution of all places that are hit; tests see single draws.", "anchors": ["tracer/optics_callables.py: LambertianReflector, LambertianReceiver, AbsorptionAccountant", "tracer/sources.py: pillbox_sunshape_directions", "tracer/spatial_geometry.py: rotation_to_z", "tracer/sphere_surface.py: SphericalGM", "tracer/tracer_engine.py: TracerEngine.ray_tracer"]}
{"id": "C116", "title": "What part of a diffuse surface's light falls on a receiver", "statement": "Rays arrive at places of a flat surface with diffuse reflection (Lambertian, absorptivity a), all from the side of its normal n, and random numbers are independent and evenly spread. A flat ReflectiveReceiver of absorptivity a' is elsewhere, in any position. Then whether a ray is sent on to the receiver has, for each ray independently, the probability that Nusselt's construction gives: the part of the unit disk that is covered by the receiver when it is projected on the unit hemisphere about the place and from there straight down on the plane. The energy the receiver reports after two iterations differs from the sum of share E (1-a) a' over the rays by less than any eps, except with a probability of at most the sum of share (1 - share) (E (1-a) a')^2, divided by eps^2. For a round receiver of radius rho that faces the place at the distance h the share is rho^2 / (rho^2 + h^2).", "quantifier": "all flat geometries of the diffuse surface (infinite plane, rectangle, round plate, triangle), all bounded ones of the receiver (rectangle, round plate, triangle), all rigid frames, all places at more than 1e-6 from the plane of the receiver and nearer to its points than 1e10 times that distance (the engine's tolerance for parallel rays), all absorptivities, all bundles that arrive at such places without crossing the receiver, all thresholds below the energies left, all probability spaces with independent evenly spread numbers, all eps", "why_tests_cant": "The claim is about a probability and about all shapes and positions; tests see single draws.", "anchors": ["tracer/optics_callables.py: Lambertian, ReflectiveReceiver, AbsorptionAccountant", "tracer/sources.py: pillbox_sunshape_directions", "tracer/spatial_geometry.py: rotation_to_z", "tracer/flat_surface.py: FlatGeometryManager, RectPlateGM, RoundPlateGM", "tracer/triangular_face.py: TriangularFace", "tracer/tracer_engine.py: TracerEngine.ray_tracer"]}
{"id": "C117", "title": "Two diffuse surfaces send each other light in proportion to their areas", "statement": "Two flat surfaces face each other. The share of its light that the first, evenly lit and reflecting diffusely, sends to the second, times its area, equals the share that the second, evenly lit, sends to the first, times its area (reciprocity of view factors). The share of a single place is the textbook integral of cos(theta1) cos(theta2) / (pi r^2) over the other surface. These shares are what a trace shows: if N rays arrive at places spread evenly over the first surface, independently of the random numbers of the diffuse reflection, the energy that a receiver at the second reports after two iterations differs from share * sum of E (1-a) a' by less than eps, except with a probability of at most share (1-share) sum of (E (1-a) a')^2, divided by eps^2.", "quantifier": "all flat parts of planes with measurable footprints of finite non-zero area, all rigid frames in which they face each other; for traces the flat geometries of the package, all places at more than 1e-6 from the plane of the receiver and nearer to its points than 1e10 times that distance, all absorptivities, energies, numbers of rays, thresholds below the energies left, probability spaces with independent evenly spread places and numbers", "why_tests_cant": "The claim relates two probabilities, for all shapes and positions; tests see single draws.", "anchors": ["tracer/optics_callables.py: Lambertian, ReflectiveReceiver, AbsorptionAccountant", "tracer/sources.py: pillbox_sunshape_directions", "tracer/spatial_geometry.py: rotation_to_z", "tracer/flat_surface.py: FlatGeometryManager, RectPlateGM, RoundPlateGM", "tracer/triangular_face.py: TriangularFace", "tracer/tracer_engine.py: TracerEngine.ray_tracer"]}
{"id": "C118", "title": "Rays drawn at random meet no ties, and the energy of their trace is in balance", "statement": "A ray that meets two surfaces at the same distance is answered by both, and its energy is counted twice (C66). In a scene of flat mirrors and receivers, any two of which are in different planes or have no point in common, this happens to almost no ray: for rays of one direction, the starting points from which any ray of the trace, the reflected ones included, meets two surfaces at the same distance have together no area. So with the rays of solar_disk_bundle, each drawn evenly, almost surely no trace has a tie, whatever the number of rays, the limit on iterations and the energy threshold; and for perfect mirrors and receivers the energy that the receivers take up, plus what the last rays carry, is exactly pi radius^2 flux. Every recorded ray has at most one child, so that no bundle of the trace has more rays than the source. Receivers, reset before the trace, together never report more than pi radius^2 flux, also with mirrors that absorb or reflect on one side only.", "quantifier": "all scenes of any number of objects and flat surfaces with the outlines and mirror or receiver optics of the package, all frames with unit normals, all planes of starting points and directions across them; for the sun all positions, unit directions, positive radii, angular ranges below pi/2, fluxes, numbers of rays, iterations, thresholds, states of the receivers, and probability spaces where each draw is even (independence is not needed)", "why_tests_cant": "The exceptions exist, but have probability zero; tests can neither find them by drawing nor show that drawing avoids them after any number of reflections.", "anchors": ["tracer/tracer_engine.py: TracerEngine.ray_tracer, TracerEngine.intersect_ray", "tracer/flat_surface.py: FlatGeometryManager, RectPlateGM, RoundPlateGM", "tracer/triangular_face.py: TriangularFace", "tracer/optics_callables.py: Reflective, ReflectiveReceiver", "tracer/sources.py: solar_disk_bundle"]}
{"id": "C119", "title": "How many rays are enough", "statement": "In a scene of mirrors and receivers where the energy is not counted twice, rays are drawn independently from one source of power B, and n of them are traced with a share 1/n of their energy each. The probability that what a receiver reports, in total or in any cell of its flux map, is off by eps or more from the mean that C113 gives is at most 2 exp(-2 n eps^2/B^2), whatever the scene. So B^2/(2 eps^2) log(2 N/eta) rays make all N cells of a flux map right within eps with a probability of at least 1-eta. For flat mirrors and receivers in different planes under the sun of solar_disk_bundle this holds without any assumption about ties, which have probability zero there (C118); so it does for a HeliostatField and its one_sided_receiver, after any calls that end with aim_to_sun(), with room between the plates. For a rectangular plate under that sun, the true value is absorptivity times flux times area times cosine, and B can be taken as absorptivity times pi radius^2 flux.", "quantifier": "all scenes of any number of objects with the shapes, mirrors and receivers of the package where almost surely no ray ties, and no ray starts too close to a surface, all sources (measurable maps from draws to rays with energies between 0 and B), all probability spaces with independent equally distributed draws, all numbers of rays, cells, iterations, all thresholds, errors eps and probabilities eta", "why_tests_cant": "A test sees a few draws; a probability of failure, for all scenes and numbers of rays, is not observable in them.", "anchors": ["tracer/tracer_engine.py: TracerEngine.ray_tracer", "tracer/optics_callables.py: AbsorptionAccountant.get_all_hits, ReflectiveReceiver", "tracer/sources.py: solar_disk_bundle", "tracer/models/heliostat_field.py: HeliostatField", "tracer/models/one_sided_mirror.py: one_sided_receiver"]}
{"id": "C120", "title": "A receiver gets no more than its heliostats intercept, and no less if nothing is in the way", "statement": "A heliostat field and its receiver are built, used through any history of aim_to_sun and set_aim_height calls that ends with aim_to_sun, and traced with the rays of solar_disk_bundle, from a disk large enough for every heliostat. The power that the receiver reports, in total or in any part of its surface, whatever the number of reflections and the threshold, is at most what the receiver would report with no heliostats there, plus (1 - absorptivity) times flux times the sum of width times height times the cosine between the sun direction and the normal of each heliostat. With at least B^2/(2 eps^2) log(2/eta) rays, B = pi radius^2 flux, one trace reports no more than that bound plus eps with a probability of at least 1-eta. If no heliostat is shaded or blocked, by another one or by the receiver, and all the light it reflects reaches the front of the receiver, then, from two iterations on, the receiver reports at least the same sum over the heliostats, and one trace with that many rays reports more than the sum less eps, with the same probability. If, besides, no heliostat is in the way of the light that goes to the receiver at once, the power reported is exactly what the receiver reports in the same plant without heliostats, plus that sum. One trace with that many rays then reports this within eps, with a probability of at least 1-eta.", "quantifier": "all positions, sizes, absorptivities and histories of heliostat fields with room around the plates, all receivers and rigid placements, all directions, angular ranges and fluxes of the sun for which all rays fall on one side of each heliostat, all numbers of iterations, rays and thresholds", "why_tests_cant": "A test sees one field and one set of draws; that no layout, shading or repeated reflection creates power is a statement about all of them.", "anchors": ["tracer/models/heliostat_field.py: HeliostatField, aim_to_sun, set_aim_height", "tracer/tracer_engine.py: TracerEngine.ray_tracer", "tracer/sources.py: solar_disk_bundle", "tracer/optics_callables.py: AbsorberReflector, ReflectiveReceiver"]}
