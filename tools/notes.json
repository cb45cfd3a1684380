{
 "C01": {
  "note": "For scenes below 2^30 triangles without 32768 coincident box centres (see C08). Triangles only met within the 2^-52 edge tolerance may or may not be reported."
 },
 "C02": {
  "note": "Same limits as C01; the exact equivalence is C02_cast_ray_iff."
 },
 "C03": {
  "note": "Same limits as C01; the exact equivalence is C03_unobstructed_iff."
 },
 "C04": {
  "note": "No size limit."
 },
 "C05": {
  "note": "Per build and over whole histories."
 },
 "C06": {
  "note": ""
 },
 "C07": {
  "note": "For rays clear of the 2^-52 edge tolerance bands."
 },
 "C08": {
  "status": "partial",
  "note": "False of the code for >= 32768 coincident triangles (n_prims wraps to a negative i16): C08_violation."
 },
 "C09": {
  "status": "partial",
  "note": "False of the code for triangles pushed after the last (re)build: C09_violation; C09_queries_are_stale says exactly what happens instead."
 },
 "C17": {
  "status": "partial",
  "note": "False of the code: triangles of side below about 1e-4.5 fail the absolute tolerance on the determinant whatever the ray, C17_violation_small_triangles_invisible; C17_hittable_partial gives the size from which it holds."
 },
 "C20": {
  "note": "Over the reals, for every centre and positive radius."
 },
 "C21": {
  "status": "partial",
  "note": "False of the code (barycentric weights are rotated): C21_violation; true when the three normals agree, C21_interpolated_normal_partial."
 },
 "C22": {
  "status": "partial",
  "note": "False of the code (pdf uses the ray's origin as a direction): C22_violation."
 },
 "C25": {
  "status": "partial",
  "note": "False of the code for pixels whose largest channel is in [1e-19, 237*2^-71): the decoded pixel falls under the darkness threshold and re-encodes to black, C25_violation; true otherwise in exact arithmetic. In double precision it is false far more widely: with any library accurate to 0.55 ulp the pixel of radiance 5 (bytes 160,160,160,131) is re-saved as 159, C25_violation_doubles; how far it can move is bounded by C110."
 },
 "C26": {
  "status": "partial",
  "note": "False of the code: from_file does not compare the number of pixels with the size line, C26_violation; for files with 4*w*h pixel bytes it holds."
 },
 "C29": {
  "status": "partial",
  "note": "Proved in exact arithmetic (C29_*_partial). In f64 the last bucket's upper end can be rounded below a value smaller than max and the loop falls through to unreachable!(): C29_violation."
 },
 "C30": {
  "status": "partial",
  "note": "Well-formedness and linear limits proved; automatic log limits are wrong (max starts at 0.001 but is compared with logarithms), C30_violation_log_auto, and negative luminances panic, C30_violation_log_negative, as does a negative upper limit, C30_violation_log_limit. Incomplete images and sides that are multiples of 65536 make the encoder fail, and so panic (C30_violation_truncated, C30_violation_wide); wider images are silently cut (C30_violation_cropped)."
 },
 "C34": {
  "status": "partial",
  "note": "False of the code: missing rows are accepted and zero-filled, surplus rows panic, C34_violation. Proved: what accepted files contain; bad headers and (up to NROWS lines) bad rows are errors."
 },
 "C36": {
  "status": "partial",
  "note": "True on square films only; on films wider than high every row comes back shifted, on portrait films rows are reported out of view (C36_violation_*)."
 },
 "C72": {
  "status": "partial",
  "note": "For unit, perpendicular direction and up. Pinhole::new does not orthonormalise: C72_violation_slanted_up."
 },
 "C49": {
  "note": "False of the code: the mirror's path has weight one whatever its colour, C49_violation; so it holds exactly for white mirrors, C49_white_mirror_partial."
 },
 "C50": {
  "status": "partial",
  "note": "False of the code: C50_violation; the reflected direction is consistent, C50_reflection_partial."
 },
 "C74": {
  "status": "partial",
  "note": "Proved for the diffuse branch; off the normal the specular branch panics with probability zero and never loops (C74_almost_never_panics_partial). False otherwise: head-on it panics with probability exp(-1/roughness^2), never below 1e-9 (C74_violation_panic_probability); from every direction most specular samples of smooth materials go into the surface (C74_violation_into_surface_probability)."
 },
 "C51": {
  "note": "Over the reals; the specular term is evaluated only where both cosines are positive."
 },
 "C55": {
  "note": "For every pair of draws in [0,1) over the reals and any orthonormal frame."
 },
 "C57": {
  "status": "partial",
  "note": "False of the code: with max_depth >= 15 the fixed 15-slot scratch arrays are indexed out of bounds (C57_violation_max_depth_15), and facing mirrors recurse without end whatever max_depth (C57_violation_mirrors). Proved: depth never exceeds max_depth+1 and the scratch suffices when max_depth < 15."
 },
 "C60": {
  "note": "False of the code: under a sky the ambient loop of an open scene does not count missed samples and never ends, C60_violation_never_ends. Proved with an explicit bound where no sample can meet a light or none is taken, C60_ends_partial."
 },
 "C64": {
  "status": "partial",
  "note": "Counts and the survival probability are as stated; the survivor is not re-weighted, C64_violation_biased."
 },
 "C77": {
  "status": "partial",
  "note": "False of the code: a sky lights no diffuse surface, C77_violation_sky_lights_nothing."
 },
 "C69": {
  "note": "For solar scenes (Visible panics, see C82)."
 },
 "C71": {
  "status": "partial",
  "note": "False of the code: a sun within 3 degrees of the zenith gets the angle arccos(3 degrees in radians), about 87 degrees, C71_violation; C71_zenith_partial covers every lower sun."
 },
 "C81": {
  "status": "partial",
  "note": "False of the code: the list of names is never written, so every use adds a material, C81_violation; equal substances do get equal materials."
 },
 "C82": {
  "status": "partial",
  "note": "False of the code: Visible is unimplemented!() and ends the program for every model, C82_violation; Solar works on every acceptable model. The visible branch behind it would take the reflectance for the absorbed fraction: C82_violation_visible_inverted."
 },
 "C83": {
  "note": "Error at most 2e-8/tau, from the ten printed digits of the constants. Real arithmetic."
 },
 "C84": {
  "status": "partial",
  "note": "False of the code for transmittances above about 0.918: the conversion returns a transmissivity above 1, C84_violation; true below (C84_energy_partial)."
 },
 "C61": {
  "note": "The property is false of the code: the colour carried by the ray is folded into every further ambient sample; the theorem gives the exact value that is added up. The sums and counts themselves are C64. Where it holds: C61_single_or_white_partial."
 },
 "C66": {
  "note": "The scanner, numbers and modifiers of the Radiance reader; reading is the same as the declarative description of the token list."
 },
 "C73": {
  "note": "The property is false of the code: the tint is applied twice on the transmitted path; the theorem gives the exact value. Where it holds: C73_clear_or_opaque_partial."
 },
 "C76": {
  "note": "The property is false of the code: the radiance factor of the transmitted path is inverted; the theorems give the exact weights for one interface and for a pane. Where it holds: C76_same_index_partial."
 },
 "C79": {
  "note": "False for distant sources (the reported density is constant, the sampler is not; how far off is C79_source_nearly_uniform_partial), for spheres seen from near (C79_violation_sphere) and for triangles (C79_violation_triangle: a density of zero is reported for directions that are drawn). For spheres the probability of every cap around the axis is computed exactly (C79_sphere_cap_partial). Missing: caps about other axes."
 },
 "C80": {
  "note": "False with bounces (the theorems give the exact sums); without bounces it holds: C80_direct_rows_partial."
 },
 "C86": {
  "note": "For scenes whose registered lights are lights on both sides; for a light with another material on its back it is false of the code (C86_violation_dark_side, C86_violation_switched_off)."
 },
 "C87": {
  "note": "For scenes whose registered lights are lights on both sides; false for a light with another material on its back (C87_violation_uplight: the underside of a switched-off uplight still lights the floor)."
 },
 "C89": {
  "note": "For input that is text. For input that is not UTF-8 it is false of the code (C89_violation_bad_line): the line and all after it are silently dropped."
 },
 "C90": {
  "note": "For readable files; a file cut off after its header is accepted as an image without pixels and crashes the comparison (C90_violation_truncated). Stored values are those of the RGBE format (C23)."
 },
 "C92": {
  "note": "For all scenes without cylinder lights, and either without glossy materials or with settings for direct light only. With glossy materials and ambient samples it is false (C92_violation_glossy). Tracing may still fail to end (C60)."
 },
 "C93": {
  "note": "For flat-shaded scenes (triangles and distant sources) without glossy materials. False on spheres, whose shading normals are not perpendicular to the facets (C93_violation_tilted_normal), and on glossy materials, with positive probability for every oblique ray (C93_violation_glossy)."
 },
 "C94": {
  "note": "Missing: glossy materials, for which it is false (C94_violation_glossy), and, for non-negativity, spheres (as C93_violation_tilted_normal). For sfluxmtx, lines whose direction is 0 0 0 are excluded (what geometry3d then does is not modelled)."
 },
 "C95": {
  "note": "Proved: the rows, the failure on bad lines and the empty scene. The absence of crashes is part of C94."
 },
 "C96": {
  "note": "For scenes without glossy materials in which every specular bounce counts or there are no specular surfaces; otherwise false: a sensor between facing mirrors never gets its coefficients (C96_violation_mirrors)."
 },
 "C97": {
  "note": "Proved for matt surfaces. For glossy surfaces the mean is computed exactly (C97_glossy_mean_partial), and it is less than the reflected light: C97_violation_glossy."
 },
 "C98": {
  "note": "Up to the tracer's tolerance at the edges of triangles and its blindness to triangles seen edge-on: bounds on both sides, which coincide for unobstructed sensors (C98_open_sky)."
 },
 "C99": {
  "note": "Nothing elsewhere is proved in full. In the directions of the paths, the value evaluated has the colour of the dielectric once more than the weight (C99_dielectric_paths_partial), so it is false for coloured dielectrics (C99_violation_dielectric_colour), and for coloured mirrors (C49_violation)."
 },
 "C100": {
  "note": "One sun and no other lights; the traced form has no ambient samples. What is hidden is known up to the tracer's tolerance at the edges of objects (bounds on both sides), and equality holds in the open (C100_open_sunlight) with the factor 4c/(1+c)^2 that comes from the source's density not being the drawn one (C79)."
 },
 "C101": {
  "note": "The program takes the boxes of the centres of the triangles instead of the boxes of the triangles: with those, everything is proved (C101_tree_partial, C101_small_leaves); with the boxes of the triangles it is false (C101_violation_boxes: twelve overlapping triangles are divided although that costs twice as much)."
 },
 "C102": {
  "note": "Exact arithmetic; on the logarithmic scale with no maximum asked for, only images with a pixel brighter than 10^0.001 (else C30_violation_log_auto). Only for complete images whose sides are not multiples of 65536; a file cut short is read and then makes sfalsecolor panic (C102_violation_truncated)."
 },
 "C103": {
  "note": "For files that load (only .rad files do, C82). External parts of loading (number syntax, polygon triangulation, sphere meshes) are parameters."
 },
 "C104": {
  "note": "Proved for mirrors with any positive probability and for all specular materials with a probability of at least one half, when no ambient sample is taken. One half is sharp: for every smaller one enough parallel panes of glass make tracing endless with positive probability (C104_violation_threshold), and at the default 0.3 four panes do so with probability at least 19/49 (C104_violation_panes)."
 },
 "C105": {
  "note": "What the sensor sees is known up to the tracer's tolerance at the edges of triangles: C105_noise has one-sided bounds, each exp(-2 n e^2/pi^2), against the two sets; where nothing is in the way they coincide (C105_open_sky, two-sided)."
 },
 "C106": {
  "note": "As for C100: one sun, bounds on both sides against the directions in which the sun is certainly and possibly seen; each has probability at most exp(-2 n e^2). The traced form has no ambient samples and flat-shaded surfaces."
 },
 "C108": {
  "note": "Over exact arithmetic, and for external functions that treat all places alike (SceneEnv.Uniform, GeoExt.Uniform; met by the reference environment with the code's own sphere meshes). Queries: all scenes. Tracing and pictures: scenes lit by suns and sky (no lamps). Direct lighting: also with lamps that are not triangles. With triangular lamps it is false (C108_violation_lamp): the probability of a shadow ray uses the coordinates of the point instead of the direction."
 },
 "C23": {
  "note": "Over exact arithmetic; C110 is the statement with every operation rounded to double precision."
 },
 "C110": {
  "note": "Doubles are modelled as rationals with 53 significant bits (no overflow or subnormals: the range 1e-18..2^126 keeps every intermediate value away from them). The library functions log2 and exp2 are external: any functions within 0.55 ulp (glibc documents 0.547 and 0.507)."
 },
 "C111": {
  "note": "False along the edges: a ray to the middle of a 0.8 m x 2.5 m floor hits neither of its two triangles (C111_violation_leak; the tolerance Float::EPSILON is smaller than the rounding errors). Proved: outside a strip of relative width M^2/(2^40 |a|) along the edges (M the size of the coordinates, a the determinant) every hit is found, and every reported hit is within that margin of a true one. Doubles are rationals with 53 significant bits (no underflow)."
 },
 "C112": {
  "note": "Proved for each ray and each pixel, with all random numbers, for scenes of matt, mirror and glass surfaces lit by suns and a sky. Dielectrics are outside the claim (radiance inside a medium of index n is n^2 times that outside, C47), lamps too (light next to a lamp is unbounded for any estimator that divides by the squared distance), and glossy materials violate C93/C94 already."
 },
 "C113": {
  "note": "False: a ray that leaves the camera backwards is reported with weight one (C113_violation_backwards), and on films wider than high rays are reported at rows the picture does not have (C113_violation_off_picture). Proved: weight is zero (with pixel (0,0)) or one, zero for rays parallel to the film, and weight one means that the line of the ray meets the film square."
 },
 "C114": {
  "note": "For scenes whose registered lights are lights on both sides; for a light with another material on its back it is false (C114_violation_dark_side, as C86). Exact, not on average: the three executions use the same random numbers."
 },
 "C115": {
  "note": "Rays within 2^-52 of an edge of a triangle already there are excluded (the tolerance in the barycentric test); with interreflections the claim is physically false (a white wall brightens), so direct light and zero-depth coefficients are what is claimed."
 },
 "C116": {
  "note": "Rays within 2^-52 of an edge are excluded. Points between a surface and Blocking distance behind it (1e-6 in the squared distance; 1e-4 in its difference) may be reported in view: that is the tolerance of the query."
 },
 "C117": {
  "note": "Proved when whatever is between the ends is at least a centimetre from both. False otherwise: a pane half a millimetre from one end is seen through from that end only (the thresholds on the squared distance are not symmetric)."
 },
 "C118": {
  "note": "Proved for points at least a centimetre from the sides of a box-shaped room (sides of 0.5 to 50 m); coefficients without bounces. False nearer: five micrometres from a wall the ray towards it gets out, so points of the walls themselves, from which bounces start, can leak."
 },
 "C119": {
  "note": "Matt plastics and metals (no specularity) with flat shading normals, suns only, no sky (ambient samples that reach a sky or lamp are redrawn uncounted, see C120), a lawful BVH and measurable box test. Sunlight at a surface is itself the mean of one shadow ray (C97 computes it for an unobstructed surface)."
 },
 "C120": {
  "note": "Partial: proved for every scene, material, ray and random stream where no ambient sample is taken (max_depth or n_ambient_samples is 0). False otherwise: ambient samples that reach a sky are redrawn without being counted whatever its brightness, so a black sky over a single matt triangle makes tracing never end (C120_violation_black_sky)."
 },
 "C121": {
  "note": "Partial. Proved for every matt sunlit scene and every sky: tracing almost surely ends if something is seen from every point a path reaches (C121_ends), and the exact mean is the rendering equation with every reflection divided by the share of the hemisphere not open to the sky (C121_mean_under_sky), so the factor is at most 1/(1-q) per reflection if at most a share q is open where paths are reflected, and the property holds if q is zero (C121_error_partial). False otherwise: ambient samples that reach a sky are redrawn without being counted, so any sky, even a black one, makes surfaces near an opening brighter (C121_violation_windows; a sunlit floor under a canopy is the case)."
 },
 "C122": {
  "note": "Scenes as in C119 (matt, flat shading normals, suns only, no sky). SolvesRenderingEquation is stated for radiances of points and directions of view (Spec/ExactLight.lean). Russian roulette (limit_weight > 0) only lowers the mean; the bound from below is for limit_weight 0, because the code does not raise the weight of the paths it keeps (C64)."
 },
 "C123": {
  "note": "Scenes as in C119 but with mirrors, glass and dielectrics. The offered paths and their weights are those of the materials (what they are is the subject of C43-C49). The hypothesis that every path ends is needed: two facing mirrors with count_specular_bounce 0 make tracing endless (C57_violation_mirrors); it holds whenever count_specular_bounce is at least 1 (C123_every_bounce_counts) or a ray meets at most b specular surfaces in a row (C123_few_in_a_row, used with the default settings in Props/GlazedExample.lean)."
 },
 "C124": {
  "note": "False of the code: shadow rays take panes of glass for walls (C124_glass_is_a_wall: the direct light does not depend on the materials of the other surfaces), and no other path looks for the sun, so a floor under a roof of the clearest glass is black for all settings and random numbers (C124_violation_glass_roof). C124_all_in_shade is the general statement: if something, be it glass, is in front of the suns everywhere, nothing but black comes back, whatever the materials."
 },
 "C125": {
  "note": "Scenes as in C119 (matt, flat shading normals, suns only, no sky). Generators are sequences of independent uniform numbers, one per chunk of 128 pixels; C125_pixel_law needs only that each is uniform, C125_pixels_uncorrelated that they are pairwise independent. Uncorrelated, not independent: how many numbers a pixel uses may depend on their values."
 },
 "C126": {
  "note": "Scenes as in C119. noiseOf (Spec/Noise.lean) is the mean squared distance from the mean. Real arithmetic. The convergence is to the light with at most max_depth reflections and with the roulette of limit_weight as it is (C64); C126_converges_to_exact_light removes both."
 },
 "C127": {
  "note": "Proved for n_ambient_samples = 1, max_depth from 1 to 14 and limit_weight from 0 to 1: the mean coefficient is exactly the irradiance of the patch by at most max_depth + 1 reflections, and the row adds up to at most pi. False for more samples (C127_violation_more_samples): the n samples of a surface share one ray whose colour is multiplied again and again, and each is divided by n only once although the primary rays are divided by n as well, so one matt triangle of colour c counts as c + c^2 + ... + c^n (C127_violation_samples_add) instead of c (C127_triangle_reflects). For max_depth = 0 see C98."
 },
 "C128": {
  "note": "For all histories related by SameButLighting; sky, suns and lamps' colours are arbitrary on both sides."
 },
 "C129": {
  "note": "Unlike C108, holds with lamps, because the coefficient tracer never samples lamps."
 },
 "C130": {
  "note": "The specification (Spec/GeometricLight.lean) mentions triangles, colours, suns and integrals only. Ways of seeing are related to the triangles up to the tolerances of VisibleHit, InRange and Blocking, as in C01-C03; of two triangles at the same distance either may be seen. Surfaces are lit a thousandth above themselves by suns and 1e-5 above themselves by surfaces, as in the program. limit_weight > 0 only removes light (C119_roulette, C130_error)."
 },
 "C131": {
  "note": "Spec/GeometricDaylight.lean mentions triangles, colours and integrals only. More than one sample with reflections is wrong in the program (C127, C61, C80); max_depth 0 with any number of samples is C98."
 },
 "C132": {
  "note": "The doubles are those of Model/F64.lean: round-to-nearest-even with 53 bits, no overflow, no NaN, no subnormals. BBox3D::intersect, max_extent, surface_area, and the sort and selection of the standard library are external and quantified over (Lawful64, BoxTestConservative64: the box test is required not to miss a box that the exact ray passes through). Lists of which 32768 triangles share a centre to 1.1e-8 are excluded from the queries (C05_violation), not from building."
 },
 "C133": {
  "note": "Both sides of every sun must be lights before and after (SunsShine: pushing the sun with a matt back would make its back paint). Repainting is restricted to matt materials (specularity 0). The daylight part needs n_ambient_samples = 1 because of C127."
 },
 "C134": {
  "note": "Proved: what is left never makes the readers panic; a matrix cut up to the number of columns and a picture cut in its header are errors; and exactly what is returned otherwise. Missing because the code violates it: the readers do not notice that data are missing (C134_violation_rows, C134_violation_value, C134_violation_columns, C134_violation_picture). Files are written front to back in pieces, so a crash is modelled as any prefix of the bytes."
 },
 "C135": {
  "note": "Brightness is that of ITU-R BT.709 on the stored channel values. Proved for inferno, magma, plasma and viridis in exact arithmetic (double precision may panic at the last stop, C29_violation); the scale of Radiance violates it (C135_violation_radiance). Continuity and the end colours are proved for all five."
 },
 "C136": {
  "note": "In the double precision model (53 significant bits, ties to even; no overflow, underflow or NaN). The picture is always written if no positive lower limit is asked for (C136_written), and its colours are right to a millionth (C136_colours, for lower ends up to 1000 times the length of the scale). Missing because the code violates it: with a positive lower limit the loop over the bins may end below the upper limit and a luminance in between panics (C136_violation); C136_written_limits_partial is what holds."
 },
 "C137": {
  "note": "In the double precision model (53 significant bits, ties to even; no overflow, underflow or NaN). Partial because the code violates the general claim: where the radiances of two pictures agree the computed difference may be a rounding error, and with no maximum given that error is the whole scale (C137_violation_noise). C137_compare_partial holds when no luminance is more than 500 times the length of the scale."
 },
 "C138": {
  "note": "Same model and same idealisations as C119, C123 and C125 (real arithmetic, endless uniform generators per chunk, pairwise independent for the noise). EndsWithin n says that the light is back after at most n passages whether they count or not; C123_few_in_a_row gives it when at most b mirrors or panes follow each other. The factor (top/eta)^2 is the code's (C76): radiance times squared index is what glass keeps."
 },
 "C139": {
  "note": "Same model and idealisations as C119, C123 and C127 (real arithmetic, endless uniform generators). SolvesGlazedEquation (Spec/ExactGlazed.lean) states the equation from what the first hit offers, without trace_ray. C139_limit needs only that for every max_depth the ray is back after some number of passages (C123_few_in_a_row gives it when at most b mirrors or panes follow each other). The factor (top/eta)^2 is the code's: radiance times squared index ratio at a dielectric (C76)."
 },
 "C140": {
  "note": "Composition of C137 (double precision, to one or two millionths per channel) with C135 (order and steps of the published scales). The scale of Radiance is left out of the first two statements because its own brightness is not monotone (C135_violation_radiance). The limits on the scale are those of C137."
 },
 "C141": {
  "note": "Same model and idealisations as C123 and C138. A pane has to let 1e-15 of some channel through before (below that the code uses another formula for the thickness), no more than everything afterwards, and its index is at least 1; mirrors ignore their colour (C49). The light has to be back after n passages in both scenes (EndsWithin), because a clearer pane may offer paths that the darker one does not."
 },
 "C142": {
  "note": "Same model and idealisations as C123 and C138. EndsWithin is needed for the first scene only; C142_at_least proves it for the repainted one. The upper bound needs limit_weight 0 because with Russian roulette brighter paint also makes paths longer."
 },
 "C143": {
  "note": "Same model and idealisations as C123 and C138. EndsWithin is a hypothesis for the finer settings only; the coarser ones inherit it. The comparison is of means: with one and the same seed a single picture may well get darker."
 },
 "C144": {
  "note": "The specification (Spec/Mirrors.lean) names no function of the tracer. Same idealisations as C130 and C123. A mirror reflects everything because the code ignores its colour (C49). C144_limit and C144_error assume that the paths end, as C123 does; C144_mean_light and C144_picture need no such assumption since every bounce counts there."
 },
 "C145": {
  "note": "The specification (Spec/Panes.lean) names no function of the tracer or of the materials; what glass does is stated as infinite sums over the reflections between its faces. As in the code, panes block the direct light of suns (C124): a sun's disc counts where nothing at all is in the way. Same idealisations as C130 and C123. C145_limit and C145_error assume that the paths end; C145_mean_light and C145_picture do not need to, since every passage counts there. C146 adds dielectrics."
 },
 "C146": {
  "note": "The specification (Spec/Media.lean) names no function of the tracer or of the materials. A ray that meets a dielectric of its own index (within 1e-7) leaves it into air, as in the code. Dielectrics block the direct light of suns, as panes do (C124). Exactly at the critical angle the code divides by zero; the real-number model makes that total reflection. Same idealisations as C130 and C123. C146_limit and C146_error assume that the paths end; C146_mean_light and C146_picture do not need to, since every passage counts there."
 }
}