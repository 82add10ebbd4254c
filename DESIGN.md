# Formal model of yosefm/tracer in Lean 4

This directory holds a Lean 4 model of the Python package in `/repo` and
kernel-checked theorems about it. `properties.jsonl` lists the properties,
`MANIFEST.json` maps each property to the theorems that settle it, and
`seeded/LOG.jsonl` records how the theorems react to seeded bugs.

Layout of `lean/Verif`:

* `Model/` mirrors the Python functions, one definition per function or branch,
  each citing file and lines.
* `Spec/` holds the vocabulary in which properties are stated. It does not use
  the helpers of the proofs.
* `Props/` holds the theorems named after the properties (`C07_…`), with an
  `example` beside them whose hypotheses are met by a concrete case.
* `Lemmas/` holds helper lemmas; `Examples/` concrete scenes.
* `Replay.lean` and `ReplayReal.lean` restate unit tests of the repository of
  the model.

Names: `_fails` and `_counterexample` are negations proved with a concrete
witness; `_partial` marks theorems that prove less than the English claim.

## Trusted base

* Lean 4.33.0's kernel, and Mathlib as installed.
* Axioms: only `propext`, `Classical.choice` and `Quot.sound` (Lean's standard
  three). No axiom is added; no `sorry`, `admit`, `native_decide` or
  `bv_decide` is used. The last section of this file lists the axioms of each
  theorem of the manifest, as printed by `#print axioms`.
* The reading of the Python source: each definition under `lean/Verif/Model`
  cites the file and lines it models; that correspondence is checked by eye
  and by replaying 60 of the repository's own unit tests on the model
  (`lean/Verif/Replay.lean`, evaluated by the kernel over the rationals, and
  `lean/Verif/ReplayReal.lean`, over the reals, where square roots and angles
  occur; some with directions left unnormalised or smaller bundles, as noted
  there). No tool compares the Python with the model.
* The specification files `lean/Verif/Spec/*.lean`: what the English words of
  a property mean.

## Conventions of the model

* **Numbers.** Exact arithmetic. The engine, frames, flat geometry, triangles
  and reflection are generic over a linearly ordered field (so they also run
  over the rationals); everything with square roots or trigonometry is over
  the reals. IEEE rounding, overflow and NaN propagation are not modelled;
  the two places where the Python relies on `inf` as a value (a missed ray,
  an infinite radius of curvature) are modelled with an explicit extra value
  (`WithTop`, where `⊤` is `N.inf`). The code is Python 2, where `/` between
  integers rounds down; the model reads every number as a float, except in
  `Model/Integers.lean`, which treats the places where it matters.
* **Exceptions** are values: functions that can raise return `Except Err α`.
  Division by zero in Python code that does not raise (NumPy returns inf/nan)
  is handled by an explicit branch or excluded by a hypothesis stated in the
  theorem, never silently by Lean's `x / 0 = 0`.
* **Bundles.** Two layers. Layer A (`Model/RayBundle.lean`) is the dictionary
  model of `RayBundle`: an ordered list of attribute names (`_check_attr`), a
  partial map from names to references, and a heap of arrays, so that views and
  shared arrays can be told from copies. Layer B (`Model/Ray.lean`) is a list of
  records, one per ray, with the five base properties and an arbitrary payload
  for user-defined properties. The engine and the optics are modelled on layer
  B; `Props/BundleRays.lean` proves that the layer-A operations the engine uses
  (inherit, add, concatenate, delete) implement the layer-B list operations.
* **Surfaces in the engine** are interfaces (`Surf`): a `register` function
  and a state-threading `outgoing` function, as the engine sees them. Engine
  theorems hold for every interface satisfying a stated contract; the concrete
  geometry managers and optics callables are then proved to satisfy it
  (`Spec/Catalogue.lean` collects them).
* **Geometry managers** are functions from (frame, bundle) to parameters and
  from (frame, hit, direction) to normals, i.e. the result of
  `find_intersections` + `select_rays` + getters. The attribute life-cycle
  (`_params`, `_working_bundle`, ... created and deleted) is modelled
  separately as a state machine (`Model/Protocol.lean`), and the engine run on
  those objects is proved to refine the functional one (C43).
* **Frames.** Transforms are homogeneous matrices with last row (0,0,0,1), kept
  as a 3x3 part and a translation. The tree of components (`Model/Assembly.lean`)
  holds each component once; shared arrays are treated in `Model/Frames.lean`,
  where arrays live in a heap, components in several places in
  `Model/Graph.lean`, and traces of surfaces listed twice or sharing a geometry
  manager in `Model/Shared.lean`.
* **Randomness**: every random draw is a universally quantified argument.

## What is modelled

| file of `/repo/tracer` | model | remarks |
| --- | --- | --- |
| `tracer_engine.py` | `Engine`, `Protocol` | every function |
| `trace_tree.py` | `Tree` | every function |
| `ray_bundle.py` | `RayBundle`, `Ray` | every function |
| `surface.py` | `Surface`, `Scene`, `Protocol`, `Mesh` | every function |
| `object.py`, `assembly.py` | `Assembly`, `Scene` | every function; each component once in the tree |
| `has_frame.py` | `Frames`, `Assembly` | every function; shape errors as values |
| `spatial_geometry.py` | `Spatial`, `Vec` | every function, without the NumPy shape handling |
| `geometry_manager.py`, `flat_surface.py`, `triangular_face.py` | `Flat`, `Protocol`, `Mesh` | every function; degenerate triangles excluded |
| `flat_surface.py`, `optics.py`, `Reflective` with rounding | `Rounded` | the expressions for flat mirrors, each operation followed by a rounding function |
| `sphere_surface.py`, `quadric.py` with rounding | `RoundedSphere` | the closed sphere with `Reflective`, likewise |
| `quadric.py`, `sphere_surface.py`, `paraboloid.py`, `cylinder.py` | `Quadric`, `Protocol`, `Mesh` | every function |
| `boundary_shape.py` | `Boundary` | every function |
| `optics.py`, `optics_callables.py` | `Optics`, `Refraction` | every function; random draws are arguments |
| `sources.py` | `Sources` | every function; random draws are arguments |
| `models/*.py` | `Mirrors`, `Heliostats`, `Triangulated`, `Lens`, `Histogram` | every function; `N.histogram2d` as documented |
| `mayavi_ui/scene_view.py` | `ShowRays`, `SceneView` | the line segments computed by `show_rays`; the state of `TracerScene` (drawings as handles; MayaVi's `remove` and `clf` assumed to do what they say, removing twice to be harmless); not `set_background` and the view item |
| `examples/tower_gui.py` | `Tower`, `TowerWindow` | all of `TowerScene` but the meshes, the camera, and the calls of Mayavi, Matplotlib and wx |
| numbers given as integers | `Integers` | the seven places where no float is written in the code and which write into the user's arrays (C110); no overflow |
| shared surfaces and managers | `Shared` | the engine of `Protocol` with the attributes in a memory (C111) |
| components in several places | `Graph` | assemblies, objects, surfaces and their lists by address (C112); no boundaries, transforms as values |
| `examples/gui.py` | `Windows` | `ExampleScene` up to the calls of Mayavi; the rotation of the leaning mirror with exact sines and cosines |
| `examples/parabolic_dish_gui.py` | `Windows` | `create_dish_source`, `recreate_dish` up to the calls of Mayavi, without colours and meshes |
| `examples/test_case.py` | `Programs` | `test_case` up to the plot |
| `qt/assembly_tree.py` | `AssemblyTree` | items and caption tags; not the Qt drawing and signals |

## Not modelled

Floating-point effects, except at flat and spherical mirrors (`Model/Rounded.lean`, `Model/RoundedSphere.lean`, C98 to C100; there without overflow,
underflow and nan); drawing by Mayavi and Qt; file formats; `examples/embedded_figure.py`;
performance; pickling; NumPy dtype coercions and broadcasting beyond the shapes
documented by each function; Python 2 vs 3 differences.
`Assembly.add_object(transform=...)` compares an array with `== None`; the model
assumes the NumPy of the package's time, where that is `False`.

## Disagreements between the code and its documentation

The properties marked "False for the code" in `properties.jsonl` are kept with
their full statement. For each there is a kernel-checked counterexample
(theorem name ending in `_fails` or `_counterexample`), and where a useful part
remains true a theorem with suffix `_partial` (or a full theorem under a
hypothesis, also suffixed `_partial`). The list:

1. `RayTree.ray_history` lacks its `self` parameter: every call raises (C17).
2. `refr_idx_hartmann` drops the term `d/(e - L)` (C54).
3. `RefractiveHomogenous` called with no selected ray raises (`C49_errors`, in
   `Props/Callables.lean`; the engine never does that).
4. `ray_tracer(reps=0, tree=False)` reads the unbound variable `record` (C11, C16).
5. `intersect_ray` looks for self-hits with one threshold and drops them with
   another, so a ray's fate depends on the other rays of its bundle (C14), and a higher energy
   threshold can bring forth new rays (C83).
6. Two surfaces at exactly the same parameter both continue the ray: the ray
   and its energy are duplicated (C09, C15, C66).
7. `HemisphereGM` and `CutSphereGM` give a ray the crossing chosen for another ray in
   mixed bundles (C39), which can be behind the ray: `ray_tracer` then raises
   `ValueError` (C75).
8. Moving a sub-assembly or an object after it was added ignores its ancestors
   until `transform_children()` of the root (C23); `aim_to_sun` of a heliostat field that was moved
   is such a case (`C23_aim_fails`).
9. `HasFrame` keeps and modifies the arrays it is given, so components can share
   frames by accident (C24, C25). `HomogenizedLocalReceiver` gives one array to its receiver and its homogenizer; the
   program of `C25_counterexample` is what it does.
10. Surfaces' bounding volumes are not consulted in tracing except by `CutSphereGM`
    (by reading only).
11. `BoundarySphere.bounding_rect_for_plane` raises after `transform_frame` and is wrong
    for centres off the plane (C42).
12. `BoundaryCylinder` is wrong for rotated or translated frames and for any
    number of points but three (C41).
13. `SphericalLens`: planar front raises `NameError`, planar back gets the wrong thickness (C61),
    the focus is not where the documentation puts it (C62).
14. `TriangulatedSurface` drops degenerate faces from one list and not from the
    other, so faces are placed wrongly (C60).
15. `square_bundle` gives another number of rays and twice the width (C57).
16. Meshes of round plates, dishes and cylinders can leave the aperture; `CutSphereGM`
    draws the whole sphere (C64). By reading only: `HexagonalParabolicDishGM` has no mesh.
17. The azimuth of `solar_vector` turns the other way than documented (C59).
18. `show_rays` uses parents as indices into a filtered bundle (C65). With the
    window's default threshold a real trace is drawn wrongly when a weak but lit
    ray is recorded after a dark one (`C65_trace_fails`); otherwise traces are
    drawn right (`C65_trace_partial`).
19. `RayBundle.__add__` and `concatenate_rays` ask `has_property` with the
    underscore included (C01, C02).
20. The almost planar branch of quadrics is exact only when the
    quadratic term vanishes: a paraboloid's equation is missed by `A t^2` (C36), a cylinder can be missed
    by a quarter of its radius (`C35_near_axis_counterexample`).
    `get_all_hits` raises when every recorded call was empty (C51).
21. One geometry manager used by two surfaces breaks the protocol (C43).
22. The back plate of `one_sided_receiver` lies 1e-10 behind the front (C68).
23. `inherit` with its default selector returns views of the parent's arrays (C05).
24. `get_surfaces` of an object, and `get_objects` without subassemblies, return the internal lists (see 41). By reading only: so do
    `get_local_objects` and `get_assemblies`.
25. `standard_minidish_measures` divides by zero at the documented limit (C63).
26. `fresnel` is 0/0 for grazing incidence between equal media (C47, C75).
27. `AssemblyTree` stores an edited caption of the top assembly, but always shows "Top assembly"; default
    captions are stored as if set, so siblings can end up with the same one (C77).
28. `PETAL`'s `receiver_aspect` is documented to change the receiver's x dimension, but changes y (`C68_petal`).
29. `FlatGeometryManager.select_rays` called twice turns normals wrongly (`C43_select_twice_fails`; the engine never does that).
30. `LambertianReflector`'s docstring speaks of a "uniform distribution of directions in 3D"; directions follow the cosine
    law, as the rest of the docstring says (`C79_not_isotropic`). The same words in `solar_disk_bundle` mean the pillbox
    distribution (C79).
31. `TracerScene.set_assembly` forgets the meshes of the assembly it replaces without removing them, so without a prior
    `clear_scene` old surfaces stay on the scene (`C80_set_assembly_fails`) and the same assembly set again is drawn twice
    (`C80_set_same_fails`); the old ray paths stay too. `update_surfaces` calls `remove` on `None` when a surface was taken
    from the assembly after `clear_scene` (`C80_update_after_clear_fails`). `set_source(None)` keeps the old paths on the
    scene (`C80_no_source_fails`). If a trace raises, `disable_render` stays set (`C80_render_fails`).
32. The tolerance below which `intersect_ray` takes a hit for the surface a ray has just left is absolute (1e-10), and rounding
    errors grow with the coordinates: a flat mirror 800 m away, in millimetres, reflects a ray twice and so lets it through
    (`C98_leak_fails`).
33. `QuadricGM._select_coords` takes the first crossing with a positive parameter, however small. When rounding puts the start of a
    reflected ray just outside a sphere, that is the crossing it starts from; `intersect_ray` then drops it, and the farther crossing
    has been forgotten. In double precision a hollow spherical mirror of radius 0.1 about (1, 0, 0) loses the light of a source in its
    centre after one reflection (`C100_keeps_fails`).
34. `one_sided_receiver` leaves its two plates out of the next iteration. With an absorptivity below 1, a grazing ray that comes in
    between the plates is reflected down by the front plate and passes the back plate, which is documented as opaque
    (`C109_half_receiver`).
35. Integer refractive indices: `n2/n1` is rounded down, so light never leaves the denser medium except at right angles (`C110_trapped`) and
    enters it in the wrong direction unless the ratio is whole (`C110_enters`); the reflectance is wrong too (`C110_fresnel_fails`).
36. A lens whose depth, index and radii are all integers gets the power of a lens without thickness (`C110_thin_lens`).
37. `aim_to_sun` for positions given as integers raises (NumPy 1.10 and later), or turns the mirrors to the sun (`C110_heliostat_raises`,
    `C110_heliostat_to_sun`).
38. `set_location` and `set_rotation` after `set_transform` with an array of integers: the values are rounded in the transform, not in what
    `get_location` and `get_rotation` return (`C110_location`, `C110_rotation`).
39. A component listed twice in a scene: the trace raises as soon as it is hit (`C111_twice`). Two surfaces with one geometry manager: if
    the later one is hit the trace raises (`C111_raises`); if only the earlier one is hit, its hit points are taken from the later one, without
    exception (`C111_shared_fails`).
40. An object added twice is at one place only (`C112_twice`), one added to a second assembly leaves the first (`C112_taken`), and an
    assembly can be put into itself only with an exception, after which it is unusable (`C112_no_cycle`, `C112_cycle`).
41. `get_objects` and `get_surfaces` sometimes return the internal list itself (`C112_get_objects`, `C112_get_surfaces`), and the constructor keeps the
    caller's list (`C112_same_list`).
42. Adding rays at a fixed positive `min_energy` makes a result worse: rays become too weak to be followed after a reflection
    (`C113_threshold_fails`).

## Plan and proof method per property

* **C01 Adding bundles keeps rays in order.** Layer-A dictionary model of RayBundle (ordered attribute list with possible duplicates, partial map to columns); theorem states the lookup of every name in the sum. Induction over the attribute list. An if-and-only-if for the call to return, from the order of the attributes.
* **C02 concatenate_rays flattens a list of bundles.** Layer-A dictionary model of RayBundle (ordered attribute list with possible duplicates, partial map to columns); induction over the attribute list and over the list of bundles; missing attribute in a later bundle is an error value. An if-and-only-if for the call to return.
* **C03 inherit overrides what is given and copies the rest.** Layer-A dictionary model of RayBundle (ordered attribute list with possible duplicates, partial map to columns); lookup characterisation for every name, selectors as index lists; unset names stay unset.
* **C04 delete_rays removes exactly the selected rays.** Layer-A dictionary model of RayBundle (ordered attribute list with possible duplicates, partial map to columns); N.delete modelled on index lists; equality with filtering out the selected positions.
* **C05 Property getters and setters are consistent.** Layer-A dictionary model of RayBundle (ordered attribute list with possible duplicates, partial map to columns); get/set laws. With shared arrays: what every property of every bundle shows after a selective set, and exactly which keep their value.
* **C06 Recorded parents are valid and propagate.** Engine model over abstract surfaces (contract: returned parents are selected indices). Invariant over the iteration loop, proved by induction on reps.
* **C07 Each recorded ray starts on its parent's ray.** Same invariant with the contract that a surface's outgoing vertex for index i is vertex_i + t_i*direction_i with t_i the registered parameter; contract discharged for the concrete geometry managers and optics.
* **C08 A ray interacts with its nearest surface.** intersect_ray modelled on lists of rows; membership characterisation of the returned masks via the column minimum.
* **C09 A ray interacts with at most one surface per iteration.** Counting on columns of the mask: two marked surfaces have equal parameters. Counterexample: two coincident plates; `_partial` under no-tie. Exact: number of children of each recorded ray in any trace with the default policies and surfaces answering each hit by one ray.
* **C10 Low-energy rays are recorded but not propagated.** Decomposition theorem of one iteration: next bundle = filter of the concatenated outputs, record = that ++ complement filter.
* **C11 The iteration limit bounds the trace.** Induction on reps.
* **C12 Exactly the hitting rays have children.** From C08's characterisation and the contract that every selected index has a child.
* **C13 Ownership and relevancy restrict testing, nothing else.** The owned mask is characterised entrywise; relevancy/ownership blocks characterised through the loop by induction over surfaces.
* **C14 Rays are traced independently of each other.** Refinement: per-ray recursive specification; engine level k is a permutation of the flatMap of the specification; additivity over ++ follows. Counterexample for the threshold window.
* **C15 Energy never increases along the tree.** Per-parent energy sum by induction over surfaces, then sums over levels by induction. With ties the sum is bounded by the number of surfaces that take the ray. The contracts of the callables hold on the rays that occur in a trace, by C74's invariant; so scenes of the package's components are covered, with any number of media.
* **C16 tree=False only changes what is recorded.** Lock-step simulation between the two runs, induction on reps.
* **C17 ray_history follows parents back to the source.** Model of the method as written (error), of the repaired signature, and the correct history on top of C06; counterexample + theorem for the corrected indexing.
* **C18 ordered_parents lists the parents of each level after the source.** Lists; ancestor chain from C06 by induction on the level.
* **C19 Surface and object numbering agree.** Assembly tree as nested inductive type; cumulative sums and repeat modelled as in NumPy; induction over the object list.
* **C20 Negative parameters are rejected, nothing else.** Case analysis of the intersect_ray model.
* **C21 A ray does not re-hit the point it starts from.** Corollary of the mask characterisation.
* **C22 Global frames are products of the frames on the path.** Assembly tree with relative and temporary frames; path-product specification by recursion on paths; mutual induction on the tree; operations as a transition system and an invariant over histories.
* **C23 Global frames stay right when any component is moved.** Counterexample tree of depth two; `_partial` theorems; iff theorems by cancelling invertible transforms along the path to a surface.
* **C24 Location, rotation and transform stay in sync.** HasFrame as a state machine, invariant over any operation list. With shared arrays: exactly when another component stays in agreement.
* **C25 Components do not share their frames.** Heap model: components hold references to arrays; set_transform stores the reference, set_location/rotation write through it. Non-interference for distinct references; counterexample for shared ones, and the exact effect of each setter on any other component.
* **C26 Rotation helpers produce proper rotations.** Explicit 3x3 algebra over the reals with Real.sin/cos.
* **C27 rotation_to_z builds a right-handed frame on the direction.** Explicit algebra, pole case split.
* **C28 Moving the scene and the rays together changes nothing.** Equivariance of local coordinates under left multiplication with a rigid transform, lifted to each geometry manager.
* **C29 global_to_local inverts the surface frame.** Explicit adjugate inverse; list map.
* **C30 Flat surface intersection is exact.** Algebra of the ray/plane equation with the tolerance explicit.
* **C31 Rectangular plate aperture is exact.** C30 plus the local coordinates.
* **C32 Round plate aperture is exact.** C30 plus the local coordinates (squared comparison related to sqrt).
* **C33 Triangular face aperture is exact.** Barycentric coordinates by Cramer's rule versus convex hull membership.
* **C34 Sphere intersection is the first forward crossing.** Quadratic formula over the reals; least positive root.
* **C35 Cylinder intersection is the first forward crossing within its height.** Quadratic formula, height test, degenerate axis-parallel case.
* **C36 Paraboloid intersection is the first forward crossing.** Quadratic formula, nearly-planar branch residual.
* **C37 Parabolic dish: aperture and focus.** z <= h iff radius <= D/2; reflection algebra of the paraboloid.
* **C38 Hexagonal dish aperture is the regular hexagon.** Hexagon as intersection of half-planes.
* **C39 Hemisphere and cut-sphere hits are inside the kept part.** Model of nonzero on the untransposed mask; counterexample with two rays; `_partial`; then the exact answer for every ray of every bundle, by induction on the rays with a count of near crossings left to give away, and from it that the bundles of the partial theorem are the only ones answered right.
* **C40 Normals are unit, orthogonal to the surface and face the ray.** Vector algebra for each manager.
* **C41 Boundary shapes answer membership.** Vector algebra; counterexample for the cylinder.
* **C42 Bounding rectangle contains the section of the sphere.** Vector algebra; counterexample; `_partial`.
* **C43 The surface protocol never trips over missing state.** Attribute-set state machine for each geometry manager; induction over engine call histories.
* **C44 Reflection obeys the law of reflection.** Vector algebra.
* **C45 Refraction obeys Snell's law.** Vector algebra with sqrt.
* **C46 Total internal reflection is decided correctly.** List filter characterisation.
* **C47 Fresnel reflectance is a fraction.** Real inequalities.
* **C48 Reflective surfaces scale energy and keep bookkeeping.** List model of the callable.
* **C49 Refractive surfaces conserve energy.** List model; per-index sums.
* **C50 Crossing a refractive surface twice restores the index.** Pointwise case split.
* **C51 Receivers account for all absorbed energy.** State machine; induction over histories.
* **C52 One-sided optics.** List model; pointwise case split.
* **C53 Lambertian reflection leaves on the side of the normal.** Random draws as arguments; rotation_to_z (C27).
* **C54 Hartmann dispersion.** Counterexample and `_partial`.
* **C55 Pillbox directions stay in the cone.** arcsin/sqrt/cos algebra.
* **C56 Solar disk bundles are on the disk, in the cone, with the right power.** C55 plus rotation; sum of constant list.
* **C57 square_bundle makes the requested number of rays.** List model of the grid; counterexample; `_partial`.
* **C58 Homogenizer walls enclose the box.** Frames of the four plates composed explicitly; set equality of the plate image and the box face.
* **C59 Heliostats send the sun to the tower.** Rotation algebra; bisector argument.
* **C60 Triangulated surfaces reproduce their faces.** Frame construction model; list filtering misalignment counterexample; `_partial`.
* **C61 Spherical lens is closed and has the requested depth.** The constructed faces as graphs over the aperture; closedness by the intermediate value theorem; counterexamples for planar faces.
* **C62 Spherical lens focuses at its focal length.** Exact refraction of a ray at distance h from the axis by the two constructed faces, and the limit of its axis crossing as h tends to 0; the documented place is refuted. The same limit for the rays that a whole trace of an assembly with the lens records, with their energy.
* **C63 Minidish measures follow the dimensioning rules.** Real algebra.
* **C64 Meshes lie on the surface and leave no gaps.** Pointwise algebra of each mesh formula; counterexamples for overshoot. Coverage: the grid point below each coordinate, and chords bounded by arcs.
* **C65 Drawn segments connect a ray's start to its end.** List model of the segment construction; counterexample; `_partial`.
* **C66 A trace loses no energy.** World state threaded through the surface loop; invariant over iterations; leaf decomposition of the tree. With ties: the surplus is counted exactly, ray by ray, in the same induction.
* **C67 Receivers hold exactly the hits of the trace.** Log of a receiver as an append-only list; induction over iterations. For objects with per-ray policies: the entries of all surfaces in one log, related by induction over generations to the recursion of Spec/Going (Lemmas/GoingLog), up to order; C81_receivers and C82_receivers follow from it.
* **C68 Collectors are laid out around their focus.** Objects of the assembly computed through the frame lemmas of C22; plate images as sets; C37 for the dish.
* **C69 Radial stagger layouts are staggered and without overlap.** Membership in the list as an existential over ring and angle numbers; injectivity of polar coordinates; the law of cosines for distances.
* **C70 Moving the whole scene moves the whole trace.** A simulation theorem for the engine: scenes whose surfaces answer alike for corresponding rays produce corresponding traces; equivariance of managers (C28) and callables supplies the simulation.
* **C71 Energies only scale.** Instance of the simulation theorem of C70 with the relabelling that scales energies; each callable and manager is shown to respect it.
* **C72 User-defined properties ride along without influence.** The same simulation, with the relabelling that rewrites the extra property; inheritance itself is C74's law.
* **C73 Receivers only watch.** The same simulation with the identity on rays and a forgetful map on the recorders' state.
* **C74 Every recorded ray obeys the law of the surface its parent hit.** Each callable's answers are shown to obey a law stated on (up, hit, child); the engine theorem of C07 is sharpened so the law reaches every recorded ray; invariants follow by induction over levels.
* **C75 Legal scenes are traced without an exception.** A safety invariant through the engine: managers that never answer behind a ray and callables that answer on legal rays keep every iteration from raising; legality of rays is C74's invariant. Proved for all managers but hemispheres and cut spheres, for which a bundle of two rays that raises ValueError is exhibited.
* **C76 A collector's histogram accounts for all absorbed energy.** The bins as NumPy documents them, on top of the receiver's memory; an invariant over the calls of a trace keeps energies and points paired and on the plate; sums of cells by induction over hits; instances for the package's collectors, with C75 for the absence of exceptions.
* **C77 The assembly tree widget shows every component once and keeps its captions.** Components are identified by paths; the widget is the tree of items returned. Membership by mutual structural induction over assemblies; renaming as an update of the tag at a path. The top item is the counterexample.
* **C78 External dimensions are those of the bounding cylinder.** The points at which the surfaces of the layout of C68 can be met are computed from C31, C37 and C38; containment by the measures, minimality by rays down to the base, the rim and the receiver.
* **C79 Random starts and directions have the documented densities.** Areas as Lebesgue measure. The map from draws to the disk is injective and has a constant Jacobian determinant, so the change of variables formula carries shares of draws to shares of area; the rest is the rotation to the axis.
* **C80 A scene shows each surface once and one set of ray paths.** The scene as a state machine, with everything its methods ask of assemblies, surfaces and the tracer as an arbitrary table that may change between calls. An invariant ties the dictionary of meshes to what is drawn; induction over histories in which the assembly is replaced on a cleared scene. Counterexamples for the rest.
* **C81 The order of construction does not matter.** The trace is refined, without conditions, to a recursion over generations in which only the engine's cutoff looks at all rays (C14_exact). That recursion does not depend on the order of surfaces; induction over generations.
* **C82 Surfaces no ray reaches do not matter.** By the same recursion: surfaces that are not reached change neither the cutoff nor the nearest hits of a generation; induction over generations.
* **C83 Raising min_energy only prunes.** For settled rays (starting on a surface, or not meeting any between 1e-10 and 1e-6) the recursion is one over single rays; sub-multisets by induction. In scenes of flat mirrors all rays after the source are settled, so the claim holds for all of them (C83_flat). Counterexample for other rays.
* **C84 A trace follows each ray by itself, through objects that claim rays or leave surfaces out.** The ownership and relevancy arrays are shown to be, at each iteration, the table of a relation between single rays and surfaces (MayMeet in Spec/Going); the masks of the matrix are then those of that relation, and the tree is the recursion over single rays, by induction over generations. C81_objects, C82_objects, C14_policies_partial and C83_flat_policies follow from it. The theorems _specular instantiate it, and C67, C81 and C82, for scenes of mirrors and refracting surfaces of the library (Spec/Specular), where a refracting surface has two children at a hit.
* **C85 A heliostat field delivers the light of the sun to its receiver.** Construction and aiming are run to the objects the engine gets (C59, C65). Each ray of a generation is shown to meet one site only or to be cut off; the recursion of C84 then gives the generations, and C67_policies what the receiver reports. Blocking is excluded by segments that miss the plates; for spread fields by balls around them, for radial_stagger by C69_apart.
* **C86 A homogenizer is a kaleidoscope that brings every ray to the receiver.** The tiling of mirror images is specified in Spec/Kaleidoscope. Construction is run to the objects the engine gets (C58, C68). Light in the tube meets one wall or the receiver next; induction on the number of cells to cross gives its way, and the recursion of C84, extended to curved mirrors (C84_mirrors, C67_mirrors), what the receiver reports. The dish sends axial rays to the focus (C37, C38); the other end of a focal chord is above the rim, so that they do not meet the dish again.
* **C87 A pane of glass splits light as the textbook says.** Zigzag, energies and Fresnel's mean reflectance are specified in Spec/Window. One face splits a ray into two (refractive_eq, C45_unique, C46); Snell's law and the reflectance are symmetric in the two sides. Each ray of a generation meets the other face or nothing, for any self-hit cutoff the engine may choose; the recursion of C14_exact, by induction over generations, gives all rays, and C75 that the trace succeeds. The sums are geometric.
* **C88 Light paths can be reversed.** Paths are specified in Spec/Reversal as free flights from surface to surface and turns at them. A flat surface meets a ray sent back as far from its end; each callable sends the reversed ray back the way it came with the same fraction (reflection is an involution, Snell's law and Fresnel's mean are symmetric). Induction over the path reverses it; the recursion of C14_exact records it, C75 gives that the traces return.
* **C89 Flat mirrors show images, and a corner of mirrors sends light back.** The image of a point in a plane and of a direction are defined in Spec/Images without the engine. C84_flat describes every recorded ray by a recursion over single rays; induction over it, with the fact that a point of the mirror is its own image. In a corner, a ray moves away from every plane it has met, so each is met at most once.
* **C90 A hollow sphere keeps its light and is black in the end.** Chords and the angle over them are specified in Spec/Cavity. The sphere is met at the end of the chord (C34), the reported normal is the radius (either sign), and reflection there gives the next chord: the places satisfy the recurrence of cosines of multiples of the angle. In a scene of one surface the recursion of C84_mirrors has one ray for each source ray (Lemmas/OneSurface); C67_mirrors gives the receiver, C75 that the trace returns; the sum is geometric.
* **C91 Light in a round pipe turns about the axis at a constant pitch and leaves at the ends.** Spec/Pipe: seen along the axis the path is that of C90 in a circle (the shadow of the ray), and along the axis it is a motion at constant speed. The cylinder is met where the shadow meets the circle (C35), the normal has no part along the axis, and so the reflected ray casts the reflected shadow. C91_helix gives the geometry, C91_infinite and C91_finite the recorded bundles through the engine (C84, one surface alone), C91_out that light leaves, C91_receiver what is reported (C67).
* **C92 Light and a ball of glass: what is thrown off, what goes round inside and what gets out.** Spec/Drop gives every direction by the moment of the light about the centre and its part along the radius. What a sphere does to a single ray is computed from the model of refractions and Fresnel's formula in these terms; the moment times the index does not change, so the places inside are those of C90. Rays that begin on the sphere and go outward do not meet it again. Lemmas/Fans follows the recursion of C84_specular where each ray is divided and only one part goes on; C75 gives that the trace returns. The deviation is computed in the plane of the ray and the centre; energies are a geometric sum.
* **C93 Light in a rod of glass: what is guided and what gets out.** Seen along the axis the rays are those of C91, whose lemmas give all places and directions; what the wall does to one ray is computed as in C92 from the model of refractions and Fresnel's formula, with the normal of the cylinder for the radius of the ball. A ray that goes outward from the wall does not meet the cylinder again. The recursion of C84_specular is followed for rays that are divided and may leave at an end.
* **C94 A profile drawn along a direction keeps the ray's component along it.** Each callable that does not scatter changes refractive index times direction by a multiple of the normal (Snell's law in vector form, C45 and C44); the normals of flat surfaces and cylinders that contain the direction are perpendicular to it. C74's theorem brings this to every recorded ray, induction over levels to the source.
* **C95 A system with an axis keeps the skewness of rays.** As C94, with the moment about the axis: the normals of the surfaces with an axis meet the axis or are parallel to it, and the moment of a direction is the same at all points of the ray.
* **C96 A stack of parallel layers keeps n sin(theta).** As C94, with the part of the direction along the layers, as a vector.
* **C97 Light takes the shortest path (Fermat).** Spec/Fermat defines the optical length of a path through given points and the line of ancestors of a recorded ray. A stretch from p to q is at least as long as its component along the ray; since index times direction changes by a multiple of the normal at each hit (BendLaw, C94), these components add up, by induction along the line of ancestors, to the optical length of the recorded path plus index times the component of the displacement, which vanishes at the end.
* **C98 Rounding errors do not bring a ray back to the mirror it leaves.** Spec/Rounded states, as relations with relative errors, what it means for a mirror to compute its answers and children with rounding; Model/Rounded evaluates the code's expressions in their order with a rounding function after each operation, and is shown to obey the relations, also for rounding to 53 bits (binary64). The distance of the computed hit point from the plane is bounded by 40 u L, the reflected direction leaves the plane with a cosine of at least c minus the errors, so that the parameter of a second hit is at most 144 u L / c. The size bound cannot be dropped: C98_leak_fails traces a concrete scene in binary64 whose light passes through the mirror.
* **C99 How large the rounding errors of a trace of mirrors can be.** From the same relations: the residual of the computed parameter in the equation of the plane gives the distance from the exact hit; the change of the length of the direction is bounded for one reflection and multiplied along the generations by induction, likewise the energy.
* **C100 A hollow sphere keeps its light, also when the numbers are rounded.** Model/RoundedSphere has the expressions of sphere_surface.py, quadric.py and optics.py with each operation followed by a rounding function; without rounding it is equal to the exact model (C100_exact, C98_exact). The claim is false: a concrete trace in double precision, evaluated operation by operation, in which the near crossing comes out tiny but positive, is selected, and is then dropped by the engine. The part that holds: if the start is computed to be not outside, the computed discriminant is at least the computed square of B, whose computed root is exactly |B| (Lemmas/Binary64), so the near crossing is not positive and the farther one is chosen.
* **C101 Receivers never report more energy than the source carried.** A surface is creditable if what it adds to the receivers' memories plus the energy of the rays it sends out is at most the energy that arrived; induction over the iterations of the engine gives the bound for the whole trace (C101_scene), and C101_bound_partial and C101_receivers_partial instantiate it for the library. The claim is false when a ray meets two surfaces at exactly the same distance: C101_fails has two coincident receivers reporting twice the source, and C101_ties bounds the surplus by the energies that such ties duplicate.
* **C102 The dish example shows all the energy its receiver absorbed.** The program is modelled from its options and random draws to the array it plots (Model/Programs.lean). C102_picture composes termination of the trace (C75), the source (C56) and the histogram (C76); C102_suns_partial adds the tally of C101 for the collector, in a trace without ties; C102_raises gives the exceptions. Lemmas/Axial.lean shows that light along the axis never meets two surfaces at once, so that the hypothesis can be met.
* **C103 A collector that follows the sun works the same wherever it points.** Setting the transform again forgets the earlier ones (transformAll_twice). C103_trace then instantiates the equivariance of the engine (C70) for the surfaces of a collector, with the memory of the receiver moved too; C103_picture reads the receiver, and C103_minidish moves the exact picture of C86.
* **C104 The dish window opens for the dishes that can be built, and draws the paths the rays take.** The window program is modelled up to the calls of the plotting library (Windows). That the trace ends is C75_collector. The mirrors are perfect and the receiver black, so by C74 every ray has its ancestor's energy or none; then C65_trace_partial gives the lines. C11_stops gives the case of many rays.
* **C105 A standard minidish keeps the light that its dimensions promise.** The rim angle of 45 degrees puts the crossing with the receiver's plane within H of the axis, so the number of mirror images crossed is bounded. The exact report of C103_minidish (C86 in any pose) is then summed.
* **C106 The window with two mirrors shows the paths of its two rays.** examples/gui.py is modelled up to the calls of Mayavi. That it opens and what it draws follows from C75 and C65, as the rays have energy 0 or 1. For the paths the engine is run symbolically on the two mirrors, and the lines of the resulting tree are enumerated.
* **C107 The window with the solar tower shows the light on its way to the tower, whatever was done before.** examples/tower_gui.py is modelled up to the calls of Mayavi, Matplotlib and wx. An invariant over lists of events says that the plant is the one for the distances in the form, aimed only, and that the lines come from a trace of it. With it C65, C75, C76, C85 and C101 give what is shown and what the flux map holds.
* **C108 A trace can be stopped and taken up again.** The loop of n + m iterations is split by induction into two loops. With default policies the state between them is the state before the first iteration of a trace of its rays, and these rays are the strong ones of the last recorded bundle. Counterexamples over the rationals show that policies and weak rays matter.
* **C109 Leaving out the surfaces just left only saves work.** Both traces are run side by side. Invariant: what the policies leave out for a ray is not met by it, or only within the 1e-6 that intersect_ray drops. Then both find the same first hits, and the contributions are the same with the rays renumbered, so the states differ only in the ownership and relevancy arrays. For a flat mirror the reflected ray meets the plate at parameter 0; a surface that absorbs everything sends no strong rays. Counterexamples over the rationals.
* **C110 Whole numbers may be given as integers.** Numbers are integers or floats (Model/Integers.lean), with Python 2 division and NumPy conversion into integer arrays; the functions are compared with the models over the reals. Exactness of floors is divisibility; components of a unit vector with two nonzero components are less than 1 and become 0.
* **C111 Surfaces may share a geometry manager, and a component may be used twice.** The engine of Model/Protocol.lean with the attributes in a memory and two addresses for each place in the list of surfaces (Model/Shared.lean). Without sharing: simulation by induction over the surfaces and iterations. With sharing: registering gives the right parameters in any case; done() at the earlier place leaves the manager in a state in which select_rays raises, by case distinction over the managers, and that state stays until the later place.
* **C112 A component may be in several places of an assembly.** Assemblies, objects, surfaces and lists found by their addresses (Model/Graph.lean), recursion with a limit. The effect of transform_children on frames is composed step by step over the loops; ways down are an inductive relation. A call raises just if there is a chain of sub-assemblies as long as the limit, by induction over the limit; a cycle gives chains of every length.
* **C113 With more rays the result converges to the power that falls on the receiver.** The hits of the receiver are a sum over the source rays of what each brings (Lemmas/MonteCarlo, from the receipts of C67), and a ray of 1/n of the energy brings 1/n as much at 1/n of the threshold. The power of one ray is a measurable bounded function of its draw (Lemmas/Measurable: every geometry manager, one by one). Then the strong law of large numbers and Chebyshev of Mathlib. For the plate: a ray meets it just if its start is in the shadow that the plate casts back on the source disk; the shadow is the image of a rectangle under an affine map with determinant the cosine. For a sun that is not a point the directions are integrated over: the mean of the cosine over the cone is that of the axis, because the tangential part averages to zero around the axis and the axial part does not depend on the radius (Fubini).
* **C114 What the iteration limit and the energy threshold cost.** From the sum over source rays of C113. A ray without two nearest surfaces has at most one child, which at the receiver has what was not absorbed; by induction on the iterations a ray brings at most what it has, so dropping it costs at most that: at most min_energy if it is dropped for weakness, at most rho^n of the energy of its source ray after n iterations.
* **C115 A hollow sphere that is white inside spreads light evenly.** A ray that leaves the wall in a direction of LambertianReflector.__call__ comes to the place c + R m q, where m is the rotation of rotation_to_z and q a point of the unit sphere that depends on the two numbers drawn; its height is spread evenly (Archimedes). Change of variables in the ball shows that q is spread evenly over the sphere, and a rotation keeps that. Induction over the draws with Fubini gives the product; induction over the iterations of the engine gives the report of the receiver.
* **C116 What part of a diffuse surface's light falls on a receiver.** The direction of Lambertian.__call__ has a projection on the tangent plane that is spread evenly over the unit disk (C79), so the probability that it is in the cone of the receiver is the area of the projection of that cone (Nusselt). The first iteration of the engine takes all rays to the diffuse surface, the second takes those in the cone to the receiver and loses the others; the receiver reports each of them once. Chebyshev for weighted independent events gives the accuracy. For a round plate the projection is a disk.
* **C117 Two diffuse surfaces send each other light in proportion to their areas.** The map from a plane to the unit hemisphere and straight down on the unit disk has the Jacobian cos(theta1) cos(theta2) / r^2 and is injective on the part in front; change of variables turns the share of C116 into the integral, which is symmetric, and Tonelli gives reciprocity. In a trace with random places the event that a ray is reported is an event of its place and its numbers only (deterministic lemma from C116); its probability is the mean share, again by Tonelli, and Chebyshev gives the accuracy.
* **C118 Rays drawn at random meet no ties, and the energy of their trace is in balance.** By C89 a ray after some reflections lies on the image of its source ray in the planes of the path. Meeting two different planes at one point is then an equation that is affine in the starting point; its coefficients are not both zero, because reflections are isometries and the direction crosses the plane of starts. There are countably many paths, so the exceptional points are a countable union of lines. Fubini and the law of the disk (C79) carry this to solar_disk_bundle; C66 gives the balance.
* **C119 How many rays are enough.** The report is the mean of what the single rays bring (C113_average), which is between 0 and their energy (C114_bounds) and a measurable function of the draw. The lemma of Hoeffding bounds the exponential moments, independence multiplies them, and the bounds of the cells add up. For the plate under the sun the mean is computed in C113. For a heliostat field the plates are in balls that do not meet, so that no ray meets two of them at one point; the two sides of the receiver are in different planes.
* **C120 A receiver gets no more than its heliostats intercept, and no less if nothing is in the way.** A ray meets one surface first, almost surely (C118). If it is the receiver, it brings what it brings to the receiver on its own, and nothing goes on; if it is a heliostat, no more than the reflected part can arrive later (C114); the back of the receiver absorbs all. So a ray brings at most what it brings to the lone receiver and the reflected part of its energy for each heliostat in its way. The mean of the latter is the power a plate sees (as in C113); integrate and add up over the field. The second theorem adds C119. For the lower bound, a ray that falls on an unobstructed heliostat meets it only, and what is reflected meets the receiver only, so that it brings at least the reflected part of its energy; rays meet at most one heliostat. For the equality, rays that meet no heliostat bring what they bring without heliostats, and those that meet one would not have met the receiver.

## Axioms of the theorems of the manifest

None (1 theorems): `View.C80_controls`.

`Classical.choice`, `Quot.sound`, `propext` (543 theorems): `Dict.C01_returns_iff`, `Dict.C02_returns_iff`, `Dict.C03_inherit`, `Dict.C03_unchanged`, `Dict.C03_default`, `Dict.C03_rays`, `Dict.C03_reflective`, `Dict.C04_delete_rays`, `Dict.C04_rays`, `Dict.C05_set_selected_partial`, `Dict.C05_reachable_wf`, `Dict.C05_set_selected_exact`, `Dict.C05_kept_iff`, `C06_parents_valid`, `C07_starts_on_parent`, `C07_starts_on_parent_perRay`, `C08_nearest_iff`, `C08_all_miss`, `C08_trace_nearest`, `C09_iff`, `C09_children`, `C09_trace_iff`, `C09_one_surface_partial`, `C09_counterexample`, `C10_low_energy`, `C11_iteration_limit`, `C11_no_iterations`, `C11_stops`, `C11_prefix`, `C12_children_iff`, `C12_escape`, `C13_next_iteration`, `C13_claimed`, `C13_skipped`, `C14_policies_partial`, `C14_flat_policies_partial`, `C14_refines_partial`, `C14_union_partial`, `C14_counterexample`, `C14_exact`, `C14_order`, `C14_flat_partial`, `C15_nonneg`, `C15_children`, `C15_total`, `C15_counterexample`, `C15_library_nonneg`, `C15_library_children`, `C15_all_children`, `C15_all_total`, `C15_default_children`, `C15_library_total`, `C15_default_total`, `C15_children_ties`, `C16_tree_false`, `C16_no_iterations`, `C17_body_partial`, `C17_body_wrong`, `C18_ancestry`, `C18_follow`, `C19_numbering`, `C19_numbering_inv`, `C19_tree`, `C20_rejects`, `C21_no_self_hit`, `C21_far_kept`, `C22_calls`, `C23_aim_fails`, `C23_counterexample`, `C23_assembly_iff`, `C23_object_iff`, `C23_surface_iff`, `C23_add_object_iff`, `C24_set_location`, `C24_set_rotation`, `C24_new`, `C24_one_component`, `C24_history_partial`, `C24_counterexample`, `C24_temp_follows`, `C24_location_iff`, `C24_rotation_iff`, `C25_step_partial`, `C25_history_partial`, `C25_counterexample`, `C25_location_exact`, `C25_rotation_exact`, `C25_location_iff`, `C25_rotation_iff`, `C25_rebinding`, `C26_rotation`, `C26_turns`, `C26_additive`, `C26_coordinate_axes`, `C26_rigid`, `C26_generate`, `C27_rotation_to_z`, `C27_poles`, `C27_list`, `C28_rect`, `C28_round`, `C28_sphere`, `C28_hemisphere`, `C28_cut_sphere`, `C28_paraboloid`, `C28_dish`, `C28_hexagonal_dish`, `C28_infinite_cylinder`, `C28_finite_cylinder`, `C29_global_to_local`, `C30_flat`, `C31_rect_plate`, `C31_constructor`, `C32_round_plate`, `C32_constructor`, `C33_triangle`, `C34_sphere`, `C34_constructor`, `C35_near_axis_counterexample`, `C35_infinite_cylinder`, `C35_finite_cylinder`, `C36_paraboloid`, `C37_dish`, `C37_focus`, `C37_concentrates`, `C38_hexagonal_dish`, `C38_concentrates`, `C39_hemisphere_partial`, `C39_cut_sphere_partial`, `C39_uncut`, `C39_single`, `C39_counterexample`, `C39_hemisphere_exact`, `C39_hemisphere_iff`, `C39_cut_sphere_exact`, `C39_cut_sphere_iff`, `C40_flat`, `C40_sphere`, `C40_cylinder`, `C40_paraboloid`, `C40_dish`, `C40_finite_cylinder`, `C41_plane`, `C41_cylinder_counterexample`, `C41_cylinder_partial`, `C41_cylinder_iff`, `C41_cylinder_location_iff`, `C42_iff`, `C42_partial`, `C42_counterexample`, `C42_moved_fails`, `C43_flat`, `C43_spheres`, `C43_quadrics`, `C43_trace`, `C43_no_attribute_error`, `C43_history`, `C43_select_twice_fails`, `C45_snell`, `C45_sines`, `C45_unique`, `C45_equal`, `C45_reverse`, `C45_plate`, `C45_normal_sign`, `C46_refracted_iff`, `C46_total_reflection`, `C46_denser`, `C46_list`, `C47_defined_iff`, `C47_fraction`, `C47_transmits`, `C47_equal`, `C47_grazing`, `C47_critical`, `C47_normal`, `C47_brewster`, `C47_reversible`, `C49_children`, `C49_energy`, `C49_answers`, `C49_errors`, `C50_toggle`, `C51_lambertian`, `C51_exact`, `C51_raises_iff`, `C53_lambertian`, `C53_answers`, `C54_counterexample`, `C54_partial`, `C55_cone`, `C55_distribution`, `C55_covers`, `C56_disk`, `C56_power`, `C56_even`, `C57_count_iff`, `C57_counterexample`, `C57_width_counterexample`, `C57_partial`, `C58_walls`, `C58_inside`, `C58_dimensions`, `C59_solar_vector`, `C59_initial`, `C59_aims`, `C60_surfaces`, `C60_partial`, `C60_index`, `C60_counterexample`, `C61_partial`, `C61_closed`, `C61_apex`, `C61_planar_front`, `C61_planar_back`, `C61_planar_back_fails`, `C61_too_small`, `C62_partial`, `C62_fails`, `C62_trace`, `C63_measures`, `C63_limit`, `C64_rect`, `C64_triangle`, `C64_sphere`, `C64_hemisphere_partial`, `C64_hemisphere_counterexample`, `C64_round_partial`, `C64_dish_partial`, `C64_cylinder_partial`, `C64_counterexample`, `C64_surface`, `C64_rect_covers`, `C64_round_covers`, `C64_dish_covers`, `C64_cylinder_covers`, `C64_sphere_covers`, `C64_hemisphere_covers`, `C64_triangle_covers`, `C65_ordered_partial`, `C65_drawable`, `C65_trace_partial`, `C65_no_threshold`, `C65_trace_fails`, `C65_lines`, `C65_partial`, `C65_counterexample`, `C66_balance_partial`, `C66_refractive`, `C66_receivers_partial`, `C66_counterexample`, `C66_exact`, `C66_no_loss`, `C66_iff`, `C66_receivers_iff`, `C67_receiver`, `C67_get_all_hits`, `C67_readable`, `C67_mirrors`, `C67_policies`, `C67_flat`, `C67_specular`, `C68_layout`, `C68_standard_minidish`, `C68_petal`, `C69_positions`, `C69_distinct`, `C69_apart`, `C70_refractive`, `C71_scale`, `C71_refractive`, `C71_quadrics`, `C72_media`, `C72_inherited`, `C72_refractive`, `C73_refractive`, `C74_law`, `C74_invariant`, `C74_refractive`, `C74_refraction_carries`, `C74_quadrics`, `C74_lambertian`, `C74_unit`, `C74_border`, `C74_media`, `C74_normals`, `C74_obeys`, `C74_library`, `C75_mirror_scenes`, `C75_collector`, `C75_border`, `C75_media`, `C75_media_iff`, `C75_progress`, `C75_flat`, `C75_lambertian`, `C75_refractive`, `C75_quadrics`, `C75_forward`, `C75_safe`, `C75_partial`, `C75_opaque`, `C75_counterexample`, `C75_hemisphere`, `C75_cut_sphere`, `C75_iff`, `C75_opaque_iff`, `C76_parts`, `C76_edges`, `C76_cell`, `C76_total`, `C76_trace`, `C76_collector`, `C76_dishes`, `C76_moved_counterexample`, `TreeUI.C77_rename_partial`, `TreeUI.C77_top_fails`, `C78_minidish`, `C78_petal`, `C78_standard_minidish`, `C79_solar_disk`, `C79_lambertian`, `C79_lambertian_cone`, `C79_not_isotropic`, `View.C80_once_partial`, `View.C80_show_partial`, `View.C80_show_some_partial`, `View.C80_update_partial`, `View.C80_replace_partial`, `View.C80_new`, `View.C80_set_assembly_fails`, `View.C80_set_same_fails`, `View.C80_update_after_clear_fails`, `View.C80_no_source_fails`, `View.C80_render_fails`, `C81_mirrors`, `C81_objects`, `C81_receivers`, `C81_specular`, `C81_construction`, `C82_mirrors`, `C82_objects`, `C82_receivers`, `C82_specular`, `C82_unreached`, `C83_flat_policies`, `C83_prunes_partial`, `C83_strong_partial`, `C83_flat`, `C83_counterexample`, `C84_mirrors`, `C84_exact`, `C84_order`, `C84_flat`, `C84_specular`, `C85_tower`, `C85_spread`, `C85_tower_gui`, `C86_homogenized`, `C86_minidish`, `C86_petal`, `C86_standard_minidish`, `C87_window`, `C87_transmitted`, `C87_limit`, `C88_reversible`, `C88_recorded`, `C88_reciprocity`, `C89_images`, `C89_corner_ends`, `C89_corner`, `C89_two_mirrors`, `C90_chords`, `C90_cavity`, `C90_receiver`, `C90_absorbed`, `C90_black`, `C91_helix`, `C91_out`, `C91_infinite`, `C91_finite`, `C91_receiver`, `C92_moment`, `C92_not_trapped`, `C92_energy`, `C92_snell`, `C92_deviation`, `C92_drop`, `C92_inside`, `C92_trapped`, `C93_angles`, `C93_guiding`, `C93_meridional`, `C93_aperture`, `C93_energy`, `C93_infinite`, `C93_finite`, `C93_guided`, `C94_along`, `C94_kept_out`, `C94_mirrors`, `C95_skew`, `C95_mirrors`, `C95_keeps_off`, `C96_layers`, `C96_out`, `C96_kept_out`, `C97_shortest`, `C97_mirrors`, `C97_tangent`, `C98_law`, `C98_not_again_partial`, `C98_moves_on_partial`, `C98_returns`, `C98_binary64`, `C98_leak_fails`, `C98_exact`, `C99_accuracy`, `C99_directions`, `C99_energy`, `C99_found`, `C100_exact`, `C100_keeps_fails`, `C100_binary64`, `C100_kept_partial`, `C101_dishes_partial`, `C101_scene`, `C101_scene_ties`, `C101_bound_partial`, `C101_receivers_partial`, `C101_ties`, `C101_fails`, `C102_picture`, `C102_suns_partial`, `C102_raises`, `C103_trace`, `C103_picture`, `C103_minidish`, `C104_raises`, `C104_opens`, `C104_shows`, `C104_many`, `C104_unlit`, `C105_reflections`, `C105_efficiency`, `C106_shows`, `C106_between`, `C106_behind`, `C107_rays`, `C107_runs`, `C107_shows`, `C107_delivers`, `C107_map`, `C107_zero`, `C107_defined`, `C108_resume`, `C108_ended`, `C108_policies_matter`, `C108_weak_matter`, `C108_library`, `C108_scene`, `C109_saving`, `C109_flat`, `C109_library`, `C109_facing_plates`, `C109_half_receiver`, `C109_scene`, `C109_collector`, `C109_tower`, `C110_lens_partial`, `C110_lens_integers`, `C110_thin_lens`, `C110_hartmann`, `C110_stagger`, `C110_refraction_partial`, `C110_toggle`, `C110_sum`, `C110_trapped`, `C110_enters`, `C110_fresnel_fails`, `C110_heliostat_raises`, `C110_heliostat_to_sun`, `C110_heliostat_partial`, `C110_heliostat_iff`, `C110_heliostat_height`, `C110_location`, `C110_rotation`, `C111_unshared`, `C111_iteration_raises`, `C111_raises`, `C111_twice`, `C111_shared_fails`, `Graph.C112_cycle`, `Graph.C112_no_cycle`, `C113_exists`, `C113_average`, `C113_converges`, `C113_unbiased`, `C113_error`, `C113_threshold`, `C113_flat`, `C113_sun`, `C113_threshold_fails`, `C113_sun_plate`, `C113_sun_round_plate`, `C113_plate`, `C113_round_plate`, `C113_plate_total`, `C114_bounds`, `C114_threshold`, `C114_iterations`, `C114_limit`, `C114_flat`, `C114_mean`, `C114_tower`, `C114_sun`, `C115_zone`, `C115_white_sphere`, `C115_accuracy`, `C116_nusselt`, `C116_accuracy`, `C116_round`, `C116_facing`, `C117_view_factor`, `C117_reciprocity`, `C117_trace`, `C118_parallel`, `C118_sun`, `C118_balance`, `C118_once`, `C118_reports`, `C118_tie`, `C119_sure`, `C119_enough`, `C119_sun_plate`, `C119_tower`, `C119_sun`, `C120_delivered`, `C120_delivered_report`, `C120_exact`, `C120_exact_report`, `C120_intercepted`, `C120_report`.

`Quot.sound`, `propext` (106 theorems): `Dict.C01_add_partial`, `Dict.C01_operands_unchanged`, `Dict.C01_add_defined`, `Dict.C01_rays`, `Dict.C02_concatenate_partial`, `Dict.C02_missing_raises`, `Dict.C02_empty`, `Dict.C02_empty_shapes`, `Dict.C02_empty_neutral`, `Dict.C02_concatenate_defined`, `Dict.C02_rays`, `Dict.C03_defined`, `Dict.C04_out_of_range`, `Dict.C04_partition`, `Dict.C04_selector_set`, `Dict.C05_set_out_of_range`, `Dict.C05_get_selected`, `Dict.C05_has_property`, `Dict.C05_shared_fails`, `C13_source`, `C17_ray_history_fails`, `C17_body_default_fails`, `C18_ordered_parents`, `C19_objects`, `C19_surfaces`, `C19_complete`, `C19_add_surface`, `C19_add_object`, `C19_add_assembly`, `C20_shape`, `C22_transform_children`, `C22_construct`, `C22_set`, `C22_add_object`, `C22_add_assembly`, `C22_history`, `C23_assembly_partial`, `C23_object_partial`, `C23_repair`, `C24_set_transform`, `C24_transform_frame`, `C24_wrong_shape`, `C28_flat`, `C28_triangle`, `C29_mesh`, `C41_sphere`, `C41_cylinder_fails`, `C43_shared_fails`, `C43_normals_unselected`, `C43_points`, `C44_mirrored`, `C44_unique`, `C44_isometry`, `C44_involution`, `C48_reflective`, `C48_answers`, `C51_history`, `C51_reset`, `C51_empty_calls_counterexample`, `C51_runs`, `C51_reflective`, `C51_balance`, `C52_one_sided`, `C65_empty`, `C66_mirror`, `C66_receiver`, `C70_motion`, `C70_reflective`, `C70_one_sided`, `C70_receiver`, `C70_policies`, `C71_flat`, `C71_policies`, `C71_reflective`, `C71_receiver`, `C72_irrelevant`, `C72_reflective`, `C72_receiver`, `C73_watch`, `C73_reflective`, `C74_reflective`, `C74_one_sided`, `C74_receiver`, `C74_mirror_carries`, `C74_flat`, `C75_mirrors`, `TreeUI.C77_shown`, `TreeUI.C77_once`, `TreeUI.C77_tags`, `TreeUI.C77_again`, `TreeUI.C77_same_caption_counterexample`, `View.C80_rays`, `C84_policies`, `C108_raised`, `C111_managers`, `Graph.C112_frames`, `Graph.C112_unique_partial`, `Graph.C112_add_object`, `Graph.C112_calls`, `Graph.C112_add_assembly`, `Graph.C112_twice`, `Graph.C112_taken`, `Graph.C112_depth`, `Graph.C112_same_list`, `Graph.C112_get_objects`, `Graph.C112_get_surfaces`.

`propext` (3 theorems): `Dict.C01_underscore_fails`, `Dict.C05_set`, `TreeUI.C77_place`.
