# Formal model of SIMPLE-BuildingSimulation/rendering — design

## 1. What this is

`/verif/lean` is a Lean 4 (4.33.0) Lake project containing

* `Verif/Model/*.lean` — a function-by-function model of the Rust code in `/repo/src`; each definition
  cites the file and lines it models and says where it simplifies;
* `Verif/Spec/*.lean` — small stand-alone specifications (what "nearest hit", "map from coordinates to
  pixels", "permutation of rows" ... mean) that do not use the model's helpers;
* `Verif/Lemmas/*.lean` — proofs' helper lemmas;
* `Verif/Props/*.lean` — the property theorems, named `Cxx_...`, each followed by examples showing that its
  hypotheses are met by a concrete non-trivial case, and — where the unchanged code violates the English
  property — by a theorem proving the violation on a concrete witness.

`properties.jsonl` lists the properties, `MANIFEST.json` maps them to theorems.

## 2. Trusted base

* Lean's kernel, and the axioms `propext`, `Classical.choice`, `Quot.sound` (no others; no `native_decide`,
  no `bv_decide`, no axiom of our own). Every theorem depends on a subset of these three.
* The reading of the Rust source: the model is hand-translated; nothing ties it to the code but the citations.
* **Numbers.** `Float` (f64) is modelled by exact arithmetic: an arbitrary linearly ordered field `K` where only
  field operations and comparisons are used (BVH, triangle tests, images, matrices, file readers), and ℝ where
  square roots or trigonometric functions occur (materials, samplers, camera, sphere mesh, tracers). Rounding, NaN,
  infinities and signed zero are outside the model, except where a property is about them: pixel coordinates in `render` (C40:
  round-to-nearest division with a p-bit mantissa), the last bucket of a colour map (C29: bit-exact binary64 in `Model/F64.lean`),
  the RGBE encoder (C25, C110: `Model/RgbeFloat.lean`) the ray/triangle test (C111: `Model/TriangleFloat.lean`) and the accelerator (C132: `Model/BvhFloat.lean`) in binary64, NaN half-vectors of the Ward sampler (C74), NaN costs of degenerate boxes (C04); casts `as u8`, `as i16`, `as i32`, `as u16`
  have their saturating/wrapping behaviour. Division by zero is 0 in Lean; theorems about quotients assume non-zero denominators.
* **Panics** are explicit values (`Res.panic`), endless loops are `Res.diverge`: loops are structural recursion or take fuel, with
  theorems that the fuel supplied always suffices (or that no fuel does, when the loop can diverge). `debug_assert!` is not modelled
  (release builds).
* **External crates** are not in the sandbox. They are given their evident mathematical definition (vectors, boxes, rays,
  matrices: `Model/Geometry.lean`, `Model/Matrix.lean`), or are parameters over which the theorems quantify:

  | Parameter | Stands for | Contract assumed (always satisfied by a concrete instance shown in the files) |
  |---|---|---|
  | `BvhEnv` | `BBox3D::intersect`, unstable sorts and `select_nth_unstable_by` | box test never rejects a ray that meets the box; results are permutations, split at the chosen index |
  | `SceneEnv` | the above, `get_normalized`, the sphere mesher (itself modelled in `Model/SphereMesh.lean`) | none beyond `BvhEnv` |
  | `GeoExt` | `Vector3D::get_perpendicular`, `intersect` of the primitives | perpendicular unit vector (`GeoExt.PerpSpec`) where needed; `intersect` arbitrary, or stated per theorem |
  | `DirTests` | `is_parallel`, `is_same_direction` | reflexive where needed |
  | `Rng` | a random generator | the sequence of numbers it will produce, each in `[0, 1)`; probabilities (C78, C79, C64) are Lebesgue measures of sets of draws |
  | `DcFactory.dirToBin` | `ReinhartSky::dir_to_bin` | below the number of bins |
  | number printing and parsing | `{:.5}`, `{}`, `parse` | round trip where stated |
  | `RadEnv`, `triNew`, `SimpleEnv` | `parse::<Float>`, triangulation, `Triangle3D::new`, `sqrt` | the empty string is no number; otherwise arbitrary |
  | `SolarExt` | the formulas of crate `solar` | arbitrary |

* Unstable sorts/selects and rayon schedules are modelled by quantifying over every permitted outcome: the parallel loops of
  `render` and `calc_dc` are interleavings of atomic steps of the workers, with the two mutexes.

Not modelled: `src/backward_metropolis/*`, `src/lights.rs` (both are not compiled: not declared / commented out
in `lib.rs`), argument parsing (`clap`) of the binaries, JPEG encoding itself (only its refusal of pictures with a zero side or too little data, which the code turns into a panic, is modelled: `JpegInput.encode`), the parsers of `obj-rs` and `simple_model`, wall-clock and stdout effects apart from the progress
counter, performance, memory use.

## 3. Plan per property

| Property | Model | Proof |
|---|---|---|
| C01, C02, C03, C06 | `Model/Bvh.lean`: flat node array, `flatten_node`, stack traversal loop | invariant over the traversal stack: the stack's subtrees + current subtree + result cover all primitives; induction on tree; refinement to "minimum over all triangles" |
| C04, C05, C07 | `Model/Bvh.lean`: `recursive_build` with arbitrary sort/selection outcomes and arbitrary SAH decision | well-founded induction on number of primitives; bucket index arithmetic over an ordered field; List.Perm |
| C08 | flattening with `as i16` wrap | partial theorem below 32768, counterexample at 32768 |
| C09–C14 | `Model/Scene.lean`: state machine over API operations | invariants by induction on operation lists; counterexample for C09 |
| C15–C19, C21, C22 | `Model/Triangle.lean` over an ordered field, `Model/TriangleReal.lean` over ℝ | algebra (Cramer), `nlinarith`/`ring`; counterexamples by computation |
| C20 | `Model/SphereMesh.lean` over ℝ | invariant of the subdivision: unit vertices, positive pairwise dots and determinants |
| C23–C28 | `Model/Image.lean`, `Model/Bytes.lean`, bytes as `UInt8` lists | floor arithmetic, list induction over header parser |
| C29, C30 | `Model/ColourMap.lean`, `ColourMapTables.lean` (the five tables), `F64.lean`, `FalseColour.lean` | induction over the bins; one kernel computation in bit-exact arithmetic for the violation |
| C31–C35 | `Model/ColourMatrix.lean`, `Model/Matrix.lean`: bytes; number printing/parsing as parameters with a round-trip contract | list induction |
| C36–C38, C72 | `Model/Camera.lean` over ℝ | orthonormal-frame algebra; counterexample for non-square films and slanted up vectors |
| C39, C41, C42, C58 | `Model/Render.lean`: interleaving semantics of chunk workers with two mutexes | invariants over reachable states |
| C40 | `Props/Rounding.lean` | round-to-nearest monotonicity argument |
| C43–C50, C52, C73, C76 | `Model/Optics.lean` over ℝ | algebra; violations traced through concrete scenes |
| C51, C74 | `Model/Ward.lean` over ℝ | algebra, positivity; Fubini for the probabilities |
| C53–C56, C78, C79 | `Model/Samplers.lean` over ℝ; `Spec/Measures.lean` defines probability over two uniform draws, solid angle, irradiance, shares of areas | algebra, trigonometric identities; change of variables in Lebesgue integrals (`Lemmas/Jacobian.lean`) |
| C57, C60, C62, C63, C75, C77 | `Model/Tracer.lean`, `Model/Ray.lean`: fuel recursion, random stream as function | induction on fuel with an invariant of state and depth; counterexample scenes |
| C58, C59, C61, C80 | `Model/DcTracer.lean` | induction on samples; counterexample scenes |
| C64 | `Model/Ray.lean` | case analysis, measure of the set of draws that survive |
| C65–C67 | `Model/Radiance.lean`: byte scanner | induction on remaining input, simulation of two layouts by the token stream; `Props/Text.lean` pins the text and count formats (UTF-8 as encoded by Lean, decimal notation) |
| C68, C69, C81–C84 | `Model/Obj.lean`, `Model/SimpleModel.lean` | list induction; real algebra for the transmissivity |
| C70 | `Model/Colour.lean` | algebra |
| C71, C85 | `Model/PerezSky.lean` | real analysis (arccos), scene effects |
| C86, C87 | `Spec/Brighten.lean` | induction on the recursion of the reference tracer (C75): the two executions are the same up to the factor; C87 is the factor 0 |
| C88–C90 | `Model/Programs.lean`: the command-line programs from parsed options and file contents to what is written; number parsing is a parameter that rejects white space | induction on text; C90 composes C23, C24, C28 |
| C91 | the whole of `spict`, from scene and options to the file | composition of C24, C37, C39, C62, C75, C86, C87 |
| C92, C93 | the tracer, for all scenes that histories of calls can produce | induction over the reference tracer of C75; invariants of histories from C05, C10–C12 |
| C94 | `calc_dc` for all scenes that histories of calls can produce | as C92, C93, by induction on the path |
| C95 | `Model/Sfluxmtx.lean`: the whole of `sfluxmtx`, from sensor text to matrix file | composition of C32, C58, C59, C89, C94 |
| C60, C96 | termination of `trace_ray` and `calc_dc` with explicit bounds on the fuel | induction on the remaining depth |
| C97 | `sample_bsdf` of the matt and glossy materials | change of variables from draws to directions (`Lemmas/Jacobian.lean`), integrals over the unit square |
| C98 | `calc_dc` without bounces | case split on what each primary ray meets, mean of a sum over independent pairs of draws, C78 |
| C99 | `dielectricPaths`/`dielectricEval`, `mirrorPaths`/`mirrorEval` over ℝ | Snell and Fresnel lemmas of C44–C47 |
| C100 | `localIllumination` and `traceRay` lighting a matt surface by one sun | change of variables on the tangent plane of the sun's direction, mean over pairs of draws (`Props/Sunlight.lean`, `Props/SunShadow.lean`) |
| C101 | `decideSplit`, `minCostLoop`, `splitCost`, `recursiveBuild` | content of the bucket table as smallest boxes, uniqueness of smallest boxes, minimum of the scan, induction on the build (`Spec/Tree.lean`, `Lemmas/BvhSplit.lean`) |
| C102 | `sfalsecolor`, `scompare` with a colour map | bytes of the encoder's input against `ScaleColour` (`Spec/FalseColour.lean`), using C28 and C30; what is read has no negative luminance (`Props/FalseColourPrograms.lean`) |
| C103 | `loadScene` followed by `World.cast`/`traceRay` | induction on the items of the text for rows and lights with materials resolved (`Spec/Programs.lean`), then C66, C05 and C01–C02 (`Props/LoadedScenes.lean`) |
| C104 | `traceRay` with `count_specular_bounce`, under the law of independent uniform draws (`Spec/Randomness.lean`) | the specular bounces form a tree, one draw per branch (`Props/SpecularTrees.lean`); probability that it is finite by the branching recursion: contraction (or, at one half, a decreasing sequence) for the positive part, supersolutions (sines, near one half) for the violations (`Props/Draws.lean`, `Props/SpecularEnds.lean`, `Props/AlmostSure.lean`) |
| C105 | `calcDc` on `n` independent uniform pairs | the coefficient is pi/n times a count of independent draws (`coefficient_direct`, C98); Hoeffding's inequality from Mathlib (`Props/Noise.lean`) |
| C106 | `localIllumination` and `traceRay` on `n` independent uniform pairs | sum of independent bounded terms (`sun_samples`, C100); Hoeffding's inequality (`mean_deviates`, `Props/SunNoise.lean`) |
| C107 | `Primitive::direction` and the three functions it dispatches to, over ℝ | vector algebra; nearest point by Cauchy–Schwarz; the cone of a sphere by completing a square |
| C108 | two executions of scene construction, the accelerator, the tracer and `render`, with every object and the viewer displaced (`Spec/Moved.lean`) | the construction and traversal of the tree commute with displacement (`Lemmas/Moved.lean`); induction on the reference tracer (C75); pictures by C39 (`Props/Moved.lean`, `Props/MovedScenes.lean`) |
| C109 | two executions of construction and tracing whose materials are numbered differently (`Spec/Numbering.lean`) | simulation: rows, lights and tracer states related by "names an equal material"; induction on the two call sequences and on the depth |
| C110 | `Model/RgbeFloat.lean`: `rusty_frexp`, `colour_to_rgbe`, `rgbe_to_colour` with every operation rounded to 53 bits; `log2`/`exp2` any functions within 0.55 ulp (`Spec/Doubles.lean`) | relative-error calculus through the whole chain; for the re-save violation (C25), a 20-digit enclosure of log2 5 from the logarithm series, evaluated by the kernel |
| C111 | `Model/TriangleFloat.lean`: `baricentric_coorinates` with every operation rounded to 53 bits | calculus of rounding errors (`Near`: value bound and number of rounding units) through cross and dot products and the quotient; Cramer's rule; the leak is one kernel computation |
| C112 | the reference tracer of C75, `Model/Tracer.lean` | invariant "light of a ray of depth d is at most U(d)" carried through shadow rays (cosine at most one, at most n terms), ambient samples (value·cos/pdf is the reflectance) and specular paths (weights add up to at most one, C48); U is a geometric sum or a constant |
| C113 | `Model/Camera.lean`: `pixelFromRay` on all directions, not only the camera's own rays | case analysis; the answer is the same for a direction and its opposite |
| C114 | three executions of construction, tracer and `render` whose lights add up (`Spec/Superposition.lean`) | three-way simulation: induction on the calls and on the reference tracer (C75), pixels by C39 (`Lemmas/Superposition.lean`) |
| C115 | two scenes, the second with further pushes; both built and queried (`Spec/Obstacles.lean`) | induction on the pushes (triangles are kept), then C01–C03; lock-step induction on the shadow-ray loops with C51 for the sign; zero-depth coefficients sample by sample |
| C116 | both queries on one built scene | C02 and C03 as characterisations by visible hits; a tolerant hit clear of the edges is a visible one |
| C117 | the view query from both ends of a segment (`Spec/Views.lean`) | C03 from both ends; the crossing parameters are `t` and `L − t`; arithmetic of the thresholds; a pane near one end for the violation |
| C118 | the walls of a box-shaped room among the triangles (`Spec/Rooms.lean`) | the first of six half-spaces the ray leaves gives a point of a wall; bounds on distance and determinant make the hit visible; then C02, the zero-depth coefficients sample by sample, and C77; a ray five micrometres from a wall for the violation |
| C119 | the rendering equation truncated after `k` reflections, with Lebesgue hemispherical integrals (`Spec/RenderingEquation.lean`) | the random stream as a product measure: a computation that reads finitely many numbers leaves a fresh independent stream (`Lemmas/Fresh.lean`); the cosine sampler's mean is the irradiance (C78), roulette's mean is its chance, shadow loops' means add; measurability of cast_ray through the tree; induction on the reflections |
| C120 | two worlds that differ in a sky of brightness 0 | simulation of the reference tracers (lights equal, probabilities not compared) when no ambient samples are taken; non-termination (C60) as the counterexample otherwise |
| C121 | a matt sunlit world, with and without a sky | the rejection loop as a geometric series of fresh draws (`Fresh.redraw`), then induction on the remaining reflections as in C119: termination almost surely, and the exact mean; the comparison with the rendering equation gives the bound and the violation |
| C122 | the light of C119 for all `max_depth` together, and the operator of the rendering equation on radiances | monotone convergence (the means are measurable in the ray by C119's construction) gives a solution; induction on the reflections bounds any other solution from both sides |
| C123 | the light of C119 with specular surfaces, unrolled to the number of steps within which all paths end (`EndsWithin`, Spec/Glazed.lean) | induction on the steps; every step's value is a `Fresh` function of the random numbers (paths are followed one after the other, each drawing the number that decides whether it counts) |
| C124 | shadow rays and traced paths in scenes lit by suns only | the exact statement of what shadow rays do (`C124_glass_is_a_wall`, `C124_shade`), by induction on the reference tracer the blackness of scenes in the shade, and a floor under a glass roof as the violation |
| C125 | a picture whose chunks have generators of independent uniform numbers | from one pixel to the next by `Fresh` (value and remaining numbers are uncorrelated), across chunks by independence |
| C126 | the second moment of the light along a primary ray | `Noisy` (second moment = mean² + noise) composed along the program: averages of n repetitions divide the noise by n; Chebyshev's inequality; C122 for the exact light |
| C127 | `calc_dc` in scenes of matt surfaces; `skySeen` is the specification | the random experiment `DcGives` by induction on the depth for one sample; the exact law of the sum of a row for one matt triangle and any number of samples as the violation |
| C128 | `calc_dc` on scenes built by two histories, `SameButLighting` is the specification | relational induction over the histories, then over the tracer's fuel |
| C129 | `calc_dc` on a scene and sensors displaced together | simulation of the tracer by its displaced copy (`MovedTracers`), with the results of C108 on the accelerator |
| C130 | as C119 and C122, against a rendering equation that mentions only the geometry (`Spec/GeometricLight.lean`) | change of variables from the random numbers to the discs of suns and hemispheres; integrals over directions do not depend on the axes (`frame_free`); then C119, C122 |
| C131 | as C127, against `Spec/GeometricDaylight.lean` | the ways of seeing of C130, `frame_free`, then C127 |
| C132 | `Model/BvhFloat.lean`: building and both traversals over binary64 numbers (`Model/F64.lean`); `Spec/BvhFloat.lean` | the invariants of C01–C05 need only the order, not the field, so they carry over; rounding errors of the triangle test from C111, of the distances by propagation (`Near`) |
| C133 | `Spec/Repaint.lean`: calls related by `SceneOp.Repainted`; model as in C119, C127 | the accelerator and all queries ignore paint; the mean light (C119, C127) is monotone in the colours by induction over reflections, including the chance of Russian roulette |
| C134 | the writers of C24, C31, C32 cut after any number of bytes, and the readers; `Spec/CutShort.lean` says what may come out | the lines and words of a prefix are those of the whole but for the last; then as in C24, C31 and C32 |
| C135 | the five tables and C102; `Spec/ScaleOrder.lean` defines brightness | a curve of straight pieces rises as its pieces do; the pieces of the tables by kernel computation over all 256 entries |
| C136 | `Model/FalseColourFloat.lean`: luminance, tables, bins, bytes, each operation rounded to 53 bits | rounding errors of the stops and of the mixture; the last stop of a scale from zero is at most one double below the limit (a nearest-double argument), so no luminance falls in between |
| C137 | `Model/ProgramsFloat.lean`: reading, differences, false colours, each operation rounded to 53 bits | reading is exact (a byte times a power of two); error of the difference, then C136 with a shifted luminance and a shifted end of the scale |
| C138 | as C123 and C119; the model is unchanged | energy: induction over the passages with the radiance divided by the squared index, Fresnel shares adding up to 1; pictures: each pixel as a random experiment (a hypothesis met by C123's trees), then the argument of C119/C125 once for all such experiments |
| C139 | as C123 and C127; the model is unchanged | truncated solutions by number of passages, monotone; their supremum solves the equation (monotone convergence through sums and irradiance); sandwich between truncations and the full solution; contraction by rho per matt surface |
| C140 | as C137 and C135; the model is unchanged | a millionth per channel moves the brightness of a pixel by less than 0.001 of a level; then the steps of the tables as in C135 |
| C141 | `glassReflTrans`, the paths materials offer, `trace_ray`, scene building | transmittance and reflectance of a pane are monotone in its clearness; induction over passages on the equation of C123, with C133 for matt surfaces; composition with C138 for pictures |
| C142 | as C141 and C133 | mirrors, panes and dielectrics offer the same paths with the same weights in both scenes; induction over passages with one factor per matt surface, exponent by the bounces left |
| C143 | as C123 and C138 | the mean light is a recursion over passages; each factor (chance to go on, chance a bounce counts, depth left) is monotone in the settings |
| C144 | as C123 and C130 | what the program meets along a ray is translated into `Scene.mirrorRadiance`, once for the recursion of C123 (every bounce counts) and once for the equation of C139 |
| C145 | as C144 | a pane's paths and weights translated into tsums over reflections between its faces by C48; then as C144 with lists of paths |
| C146 | as C145 | lists of paths carry the index of their medium; a dielectric's list is that of Snell and Fresnel, with the critical angle as a separate case; then C123, C138, C139 |
| C147– | see `properties.jsonl`; compositions of the above | |

Every property is expressible in a model; the parts that are not (float rounding, NaN, actual thread runtime) are
named in each theorem's comment and in section 2.

## 4. Disagreements between code and property (findings)

Each has a theorem with a concrete witness (or for all inputs), proved of the unchanged model.

| Property | What the code does | Theorem |
|---|---|---|
| C08 | the primitive count of a leaf is an `i16`: 32768 triangles with one centroid wrap to a negative count and are never found | `C08_violation` |
| C09 | objects pushed after `build_accelerator` are invisible (and may shift others) until `rebuild_accelerator` | `C09_violation`, exact behaviour `C09_queries_are_stale` |
| C17 | the determinant is compared with an absolute tolerance: small triangles cannot be hit by any unit ray | `C17_violation_small_triangles_invisible` |
| C21 | barycentric weights of the interpolated normal are rotated by one vertex | `C21_violation` |
| C22 | the solid-angle pdf uses `ray.origin · normal` instead of the direction: not translation invariant | `C22_violation` |
| C25 | decoding a very dark pixel and re-encoding it gives black; in double precision the pixel of radiance 5 is re-saved one step darker (`rusty_frexp` goes through `log2`/`exp2`, which round) | `C25_violation`, `C25_violation_doubles` |
| C26 | `from_file` does not compare pixel count and size line | `C26_violation` |
| C29 | rounding can put the end of the last colour bin below a value smaller than `max`: panic | `C29_violation` |
| C30 | automatic log limits start from a non-logarithmic 0.001; negative luminance panics, and so does a negative upper limit; incomplete images, and sides that are multiples of 65536, panic in the encoder; wider images are silently cut to their width modulo 65536 | `C30_violation_log_auto`, `C30_violation_log_negative`, `C30_violation_log_limit`, `C30_violation_truncated`, `C30_violation_wide`, `C30_violation_cropped` |
| C94, C96 | a sensor facing rough glossy plastic makes `calc_dc` panic; a sensor between facing mirrors makes it run for ever at the default settings, whatever `max_depth` | `C94_violation_glossy`, `C96_violation_mirrors` |
| C87 | the plastic underside of an uplight lights the floor when every light is switched off | `C87_violation_uplight` |
| C104 | at the default `count_specular_bounce` 0.3, a ray straight at four parallel panes of glass is traced for ever (so until the stack overflows) with probability at least 19/49: each pane splits the ray and bounces are counted too rarely; one half is the sharp threshold, for every smaller setting enough panes do this | `C104_violation_panes`, `C104_violation_threshold` |
| C102 | a truncated HDR file is read without complaint and then panics in `sfalsecolor` | `C102_violation_truncated` |
| C34 | missing rows are zero-filled silently, surplus rows panic instead of an error | `C34_violation` |
| C36 | `pixel_from_ray` ignores the aspect ratio: wrong row on every non-square film | `C36_violation_landscape`, `_portrait` |
| C41 | the progress counter is an `i32`; beyond 2^31 it overflows | `C41_bound_needed` |
| C49 | a mirror's path has weight one whatever its colour | `C49_violation` |
| C50 | `Glass::eval_bsdf` tests the transmission flag the wrong way round | `C50_violation` |
| C57 | `max_depth ≥ 15` indexes 15-slot scratch out of range; facing mirrors recurse forever | `C57_violation_max_depth_15`, `C57_violation_mirrors` |
| C60 | missed samples under a sky are not counted: the ambient loop of an open scene never ends | `C60_violation_never_ends` |
| C61, C80 | `calc_dc` reuses the modified ray for the next ambient sample: samples fade (dark walls) or rows exceed π (specular highlights, white walls) | `C61_violation_samples_fade`, `C80_violation_*` |
| C64 | Russian roulette: survivors are not re-weighted by the survival probability | `C64_violation_biased` |
| C71 | a sun within 3° of the zenith is given the zenith angle arccos(0.0523…) ≈ 87° | `C71_violation` |
| C72 | `Pinhole::new` does not orthonormalise `view_up`: a slanted one distorts the field of view | `C72_violation_slanted_up` |
| C73 | the daylight tracer applies a dielectric's tint twice per crossing | `C73_violation_tint_squared` |
| C74 | the specular branch of the Ward sampler returns directions into the surface (from every direction, with the probability given), and panics on NaN (head-on, with probability `exp(-1/α²)`) | `C74_violation_into_surface`, `_panic`, `_into_surface_probability`, `_panic_probability` |
| C92 | a glossy surface seen head-on can stop the rendering with a panic | `C92_violation_glossy` |
| C76 | the radiance scaling uses (n2/n1)² where (n1/n2)² is right | `C76_violation_inverted`, `_glass` |
| C77 | sky radiance never lights diffuse surfaces (its pdf is positive, so the sample is discarded) | `C77_violation_*` |
| C79 | a distant source is sampled with another density than the reported one | `C79_violation_source` |
| C79 | so is a sphere seen from near | `C79_violation_sphere` |
| C79 | the density reported for triangular lights uses the position of the ray instead of its direction, and can be zero for directions drawn | `C79_violation_triangle` |
| C99 | evaluating a coloured dielectric tints its reflection, and tints transmission twice; the paths it offers don't | `C99_violation_dielectric_colour` |
| C81 | names of substances are never recorded, so substances are added once per use | `C81_violation` |
| C82 | `Wavelengths::Visible` always panics, so the programs crash on every `.spl` file | `C82_violation`, `C82_violation_programs` |
| C84 | transmittance above ≈ 0.918 becomes a transmissivity above one: glass that creates energy | `C84_violation` |
| C86, C87 | a luminaire with a non-light material on its back lights what is behind it with that material's colour, even when all lights are off | `C86_violation_dark_side`, `C86_violation_switched_off` |
| C89 | a line of the sensor list that is not UTF-8 silently drops itself and all further sensors | `C89_violation_bad_line` |
| C90 | an image file cut off after its header crashes `scompare` | `C90_violation_truncated` |
| C93 | on spheres, matt surfaces can turn positive light into negative light (the shading normal is not perpendicular to the facet) | `C93_violation_tilted_normal` |
| C93 | on plastic and metal, light reflected specularly from an oblique ray counts as negative light with positive probability (the sample weight 2/(1 + v·n/l·n) is negative when the sampled direction is deeper below the surface than the ray stands above it) | `C93_violation_glossy` |
| C97 | glossy surfaces (`specularity > 0`) come out too dark on average: the sampler picks the specular lobe with probability `s` but does not divide by the probability of the branch, and its specular samples all lie in the plane of incidence | `C97_violation_glossy` |
| C108 | whether a triangular lamp lights a floor depends on where the room is: the same room two units lower is lit instead of black, with the same random numbers | `C108_violation_lamp` |
| C111 | the tolerance of the ray/triangle test (`Float::EPSILON`) is below its rounding errors: rays slip through the common edge of two triangles | `C111_violation_leak` |
| C114 | as C86: the plastic underside of a luminaire sheds the same light however much the lamp is dimmed, so halves do not add up to the whole | `C114_violation_dark_side` |
| C113 | `pixel_from_ray` takes a ray that leaves the camera backwards for its opposite: it is reported at a pixel, with weight one; on landscape films it names rows that do not exist | `C113_violation_backwards`, `C113_violation_off_picture` |
| C117 | an obstacle within a millimetre or so of one end of a segment hides the ends from one another in one direction only | `C117_violation_near_end` |
| C118 | a ray that starts within ten micrometres of a wall passes through it: closed rooms leak near their edges | `C118_violation_near_wall` |
| C120 | adding a sky without brightness changes the light of interreflections: ambient samples that reach it are redrawn and not counted; over a lone surface tracing never ends | `C120_violation_black_sky` |
| C121 | any sky, even a black one, makes surfaces that see an opening brighter: the mean of every reflection is divided by the share of the hemisphere that is not open to the sky | `C121_mean_under_sky`, `C121_violation_windows` |
| C124 | shadow rays take panes of glass for walls and no other path looks for the sun: a floor under a clear glass roof gets no sunlight at all | `C124_glass_is_a_wall`, `C124_all_in_shade`, `C124_violation_glass_roof` |
| C127 | with n ≥ 2 samples per point, a matt surface of colour c counts in the daylight coefficients as c + c² + … + cⁿ instead of c: over a white floor the mean grows with n | `C127_violation_samples_add`, `C127_violation_more_samples` |
| C134 | files that were cut short (a full disk, a killed process) are read without complaint: missing rows are zero, the last number written may be cut to another number, the number of columns may be cut to another, and pixels may be missing | `C134_violation_rows`, `C134_violation_value`, `C134_violation_columns`, `C134_violation_picture` |
| C135 | on Radiance's scale larger values may look much darker (purple to blue), so false-colour pictures made with it are not ordered by brightness | `C135_violation_radiance` |
| C136 | with a lower limit of 0.1 and no upper limit, a picture with two pixels of almost the same, largest luminance makes `save_falsecolour` panic (`unreachable!()`): the last computed stop lies two doubles below the brightest pixel | `C136_violation` |
| C137 | `scompare -m` of two pictures that have exactly the same radiance everywhere (but not the same colours) shows a pixel with the brightest colour of the map: with no maximum given the scale ends at the largest difference, which is a rounding error | `C137_violation_noise` |
| C101 | the surface area heuristic is fed the boxes of the triangles' centres instead of the triangles' | `C101_violation_boxes` |

Other observations, not tied to a property: OBJ faces with more than four corners are skipped, with fewer than three they panic,
and OBJ normals are read but ignored (C68); in Radiance proper a later redefinition of a modifier wins, here the first does, and `#`
comments are not supported (C66, C67); `calc_dc` has the same `i32` counter as `render`.

## 5. Testing the theorems

`seeded/LOG.jsonl` records the wrong programs tried: each edits one definition of the model in a scratch copy and rebuilds; theorems that
still proved although their claim was false of the edited program were tightened.
