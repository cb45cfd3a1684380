{"id": "C01", "title": "Scene::cast_ray reports the nearest triangle", "statement": "If Scene::cast_ray (BoundingVolumeTree::intersect) reports a hit for a built scene, the reported triangle index is one of the scene's triangles, that triangle is really hit by the ray beyond the minimum distance, and no triangle of the scene that the ray hits beyond the minimum distance is nearer (a triangle is 'hit' up to the 2^-52 barycentric edge tolerance of the triangle test).", "quantifier": "every non-empty scene (any order and shape of triangles, fewer than 2^30 of them and fewer than 32768 with coincident box centres — beyond that see C08), every ray, every build outcome the unstable sorts/selects may produce", "why_tests_cant": "tests can only sample scenes and rays; a wrongly flattened subtree or skipped child shows up only for particular tree shapes and ray directions", "anchors": ["src/bvh.rs: BoundingVolumeTree::intersect, flatten_node, recursive_build", "src/scene.rs: cast_ray"]}
{"id": "C02", "title": "Scene::cast_ray misses nothing", "statement": "Scene::cast_ray returns no intersection exactly when no triangle of the scene is hit by the ray beyond the minimum distance.", "quantifier": "every scene within the size limits of C01, every ray, every tree the builder may produce", "why_tests_cant": "a missed primitive depends on a combination of tree shape, traversal order and box tests no finite suite enumerates", "anchors": ["src/bvh.rs: BoundingVolumeTree::intersect, flatten_node", "src/scene.rs: cast_ray"]}
{"id": "C03", "title": "unobstructed_distance is exactly 'no blocker'", "statement": "Scene::unobstructed_distance(ray, d2) answers false exactly when some triangle of the scene is hit at a squared distance t2 with t2 > 1e-6, t2 + 1e-6 < d2 and |d2 - t2| > 1e-4, and true otherwise, whatever the tree looks like.", "quantifier": "every scene within the size limits of C01, every ray and target squared distance, every tree the builder may produce", "why_tests_cant": "same reason as C02; early termination makes the outcome depend on the traversal order", "anchors": ["src/bvh.rs: BoundingVolumeTree::unobstructed_distance"]}
{"id": "C04", "title": "Building the accelerator always succeeds", "statement": "BoundingVolumeTree::new terminates for every scene, never indexes out of bounds and never unwraps an empty bucket: every internal split leaves both halves non-empty and the first and last bucket are always populated.", "quantifier": "every list of triangles and every behaviour of the unstable sort / select and every centroid distribution", "why_tests_cant": "the bucket arithmetic depends on real-valued centroids; degenerate distributions are unboundedly many", "anchors": ["src/bvh.rs: recursive_build, get_bucket_index, new"]}
{"id": "C05", "title": "Building only permutes the scene's triangles", "statement": "After Scene::build_accelerator the triangles, front materials, back materials and normals are one common permutation of what was pushed: no triangle is lost, duplicated or paired with another triangle's materials or normals.", "quantifier": "every sequence of pushed objects, every tree shape", "why_tests_cant": "the permutation is a function of all centroids; pairing errors only show for scenes with distinguishable rows", "anchors": ["src/bvh.rs: BoundingVolumeTree::new, recursive_build", "src/scene.rs: build_accelerator"]}
{"id": "C06", "title": "Traversal scratch memory does not leak between rays", "statement": "The answer of cast_ray and unobstructed_distance does not depend on what a previous query left in the RayTracerHelper's node stack.", "quantifier": "every previous content of the scratch vector, every scene and ray", "why_tests_cant": "stale content depends on the whole history of earlier rays", "anchors": ["src/bvh.rs: intersect, unobstructed_distance", "src/ray_tracer.rs: RayTracerHelper"]}
{"id": "C07", "title": "Answers do not depend on how the tree was built", "statement": "Two accelerators built over the same triangles (by build_accelerator or rebuild_accelerator, with any tie-breaking of the unstable sorts and any box-splitting decision) agree on whether any ray hits, on the distance of the hit and on every unobstructed_distance answer.", "quantifier": "every pair of build outcomes over the same scene (size limits of C01), every ray clear of the 2^-52 edge tolerance bands", "why_tests_cant": "sort_unstable / select_nth_unstable leave the order of ties open, so one test run exercises one outcome only", "anchors": ["src/bvh.rs: recursive_build, flatten_node", "src/scene.rs: rebuild_accelerator"]}
{"id": "C08", "title": "Leaves survive the 16-bit primitive count", "statement": "However many triangles share one centroid (and therefore one leaf), they are all still found by cast_ray.", "quantifier": "every number of coincident-centroid triangles", "why_tests_cant": "needs scenes of tens of thousands of coincident triangles", "anchors": ["src/bvh.rs: flatten_node (n_prims as i16), intersect"]}
{"id": "C09", "title": "Objects pushed after build_accelerator are seen", "statement": "Every query answered by a scene reflects all the objects pushed so far, whether pushed before or after build_accelerator.", "quantifier": "every interleaving of push_object, build_accelerator, rebuild_accelerator and cast_ray", "why_tests_cant": "quantifies over histories of API calls", "anchors": ["src/scene.rs: push_object, build_accelerator, rebuild_accelerator, cast_ray"]}
{"id": "C10", "title": "Scene arrays stay aligned and indices stay valid", "statement": "After any sequence of push_material / push_object / build_accelerator / rebuild_accelerator / add_perez_sky calls, triangles, normals, front materials and back materials have the same length and every material index stored in the scene (triangles, lights, distant lights) designates an existing material.", "quantifier": "every finite history of Scene API calls", "why_tests_cant": "invariant over unbounded histories", "anchors": ["src/scene.rs: Scene::push_material, push_object, build_accelerator, add_perez_sky"]}
{"id": "C11", "title": "Material handles are stable", "statement": "The index returned by push_material keeps designating exactly the pushed material after any further sequence of scene operations.", "quantifier": "every material and every later history", "why_tests_cant": "quantifies over all later histories", "anchors": ["src/scene.rs: push_material"]}
{"id": "C12", "title": "Light registry is complete", "statement": "count_all_lights equals the number of pushed objects whose front or back material is a Light; the ones whose primitive is a distant source go to the distant-light list and the others to the near-light list.", "quantifier": "every history of scene operations", "why_tests_cant": "quantifies over histories", "anchors": ["src/scene.rs: push_object, count_all_lights"]}
{"id": "C13", "title": "push_object fails exactly on invalid input", "statement": "push_object panics exactly when one of the material indices is out of range, or the primitive is neither a triangle nor a sphere and neither material is a light; otherwise it succeeds and stores exactly the primitive's triangles, all carrying the given indices.", "quantifier": "every scene state, primitive and pair of indices", "why_tests_cant": "case analysis over all states", "anchors": ["src/scene.rs: push_object"]}
{"id": "C14", "title": "Accelerator life cycle", "statement": "build_accelerator panics exactly when an accelerator exists; cast_ray and unobstructed_distance panic exactly when none exists; rebuild_accelerator always leaves a scene with an accelerator.", "quantifier": "every history", "why_tests_cant": "quantifies over histories", "anchors": ["src/scene.rs: build_accelerator, rebuild_accelerator, cast_ray, unobstructed_distance"]}
{"id": "C15", "title": "Triangle hits are geometric", "statement": "Whenever triangle_intersect reports a hit, the reported point is both on the ray at a positive parameter and equal to a(1-u-v)+bu+cv with barycentric coordinates within the tolerance (so it lies on the triangle up to the tolerance), and the reported normal is orthogonal to both edges and faces against the ray on the side reported.", "quantifier": "every triangle and every ray", "why_tests_cant": "real-valued inputs", "anchors": ["src/triangle.rs: baricentric_coorinates, triangle_intersect, new_info"]}
{"id": "C16", "title": "Triangle hits are complete", "statement": "If a ray passes through a point of a triangle at parameter t greater than the tolerance and is not near-parallel to it (|determinant| at least the tolerance), triangle_intersect and simple_triangle_intersect report it, with exactly that point and parameter.", "quantifier": "every triangle, ray and point on the triangle", "why_tests_cant": "real-valued inputs", "anchors": ["src/triangle.rs: baricentric_coorinates, simple_triangle_intersect, triangle_intersect"]}
{"id": "C17", "title": "No triangle is too small to be hit", "statement": "Every non-degenerate triangle can be hit by some unit-direction ray, however small it is.", "quantifier": "every non-degenerate triangle", "why_tests_cant": "the threshold is absolute, so failures only appear below a size no test uses", "anchors": ["src/triangle.rs: baricentric_coorinates (TINY)"]}
{"id": "C18", "title": "triangle_area is the area", "statement": "triangle_area (Heron's formula) equals half the norm of the cross product of two edges, is non-negative, does not depend on the order of the vertices, is invariant under translation and scales quadratically.", "quantifier": "every triangle", "why_tests_cant": "real-valued inputs", "anchors": ["src/triangle.rs: triangle_area"]}
{"id": "C19", "title": "World bounds of a triangle are tight", "statement": "triangle_world_bounds contains every point of the triangle and is contained in every axis-aligned box that contains the three vertices.", "quantifier": "every triangle and every point of it", "why_tests_cant": "real-valued inputs", "anchors": ["src/triangle.rs: triangle_world_bounds"]}
{"id": "C20", "title": "mesh_sphere approximates the sphere", "statement": "mesh_sphere returns 20480 triangles, every vertex lies exactly on the sphere, every triangle is non-degenerate and wound outwards, the three reported normals are the outward unit normals at the vertices, and all material indices are the given ones.", "quantifier": "every centre and positive radius", "why_tests_cant": "real-valued inputs; 61440 vertices per sphere", "anchors": ["src/triangle.rs: mesh_sphere, refine_triangles (inside mesh_sphere)"]}
{"id": "C21", "title": "Interpolated normals follow the hit point", "statement": "The shading normal returned for a hit at p = a(1-u-v)+bu+cv is the combination of the vertex normals with the same weights, flipped to the side that was hit.", "quantifier": "every hit and every triple of vertex normals", "why_tests_cant": "real-valued inputs; the library's own tests use equal vertex normals", "anchors": ["src/interaction.rs: interpolate_normal", "src/triangle.rs: baricentric_coorinates"]}
{"id": "C22", "title": "Light sampling density is a property of directions and distances", "statement": "The solid-angle density reported for a triangle light does not change when the whole scene, ray included, is translated.", "quantifier": "every triangle, ray, and translation", "why_tests_cant": "metamorphic relation over all inputs", "anchors": ["src/triangle.rs: triangle_solid_angle_pdf", "src/primitive_samplers.rs: triangle_solid_angle_pdf"]}
{"id": "C23", "title": "RGBE encoding error is bounded", "statement": "For every pixel whose largest channel is in the encodable range, decoding its four RGBE bytes yields, channel by channel, a value not above the original and below it by less than 1/128 of the largest channel; pixels whose largest channel is below 1e-19 decode to black.", "quantifier": "every non-negative pixel value in range", "why_tests_cant": "2^192 pixel values", "anchors": ["src/image.rs: colour_to_rgbe, rgbe_to_colour, rusty_frexp, ldexp"]}
{"id": "C24", "title": "HDR files round-trip", "statement": "Reading back (ImageBuffer::from_file) what save_hdre wrote gives an image of the same width, height and pixel count, whose pixels are exactly the RGBE-decoded encodings of the originals, in the same order; no pixel byte is ever mistaken for header.", "quantifier": "every image of any size and content", "why_tests_cant": "all byte contents, including pixel bytes that look like newlines or header text", "anchors": ["src/image.rs: save_hdre, from_file"]}
{"id": "C25", "title": "Re-saving a decoded image changes nothing", "statement": "Encoding a pixel that was decoded from an encoding gives back the same four bytes.", "quantifier": "every pixel in the encodable range", "why_tests_cant": "2^192 pixel values; the failing ones are in a sliver next to the underflow threshold", "anchors": ["src/image.rs: colour_to_rgbe, rgbe_to_colour"]}
{"id": "C26", "title": "Reading an HDR file never yields an inconsistent image", "statement": "If from_file returns an image, its pixel count is width times height.", "quantifier": "every byte string a file may contain", "why_tests_cant": "all byte strings (truncations, corruptions)", "anchors": ["src/image.rs: from_file"]}
{"id": "C27", "title": "ImageBuffer behaves like a map from in-range coordinates to pixels", "statement": "For coordinates inside the image, reading after writing at (x,y) gives the written value at (x,y) and the previous value elsewhere; two distinct coordinate pairs never share a pixel; pixels() lists rows top to bottom, left to right; an index beyond the buffer panics.", "quantifier": "every size, every history of writes, every coordinate pair", "why_tests_cant": "quantifies over histories of writes", "anchors": ["src/image.rs: Index/IndexMut for ImageBuffer, new, from_pixels, pixels"]}
{"id": "C28", "title": "Image comparison", "statement": "diff succeeds for two consistent images exactly when the sizes agree, is symmetric, is zero exactly where the radiances agree, and is gray everywhere.", "quantifier": "every pair of images", "why_tests_cant": "all sizes and contents", "anchors": ["src/image.rs: diff", "bin/scompare.rs"]}
{"id": "C29", "title": "Colour maps are total, clamped and ordered", "statement": "For min<max and a map of at least two colours, map_linear_colour returns a colour for every number: the first colour at or below min, the last at or above max, and in between the linear interpolation of the two colours whose interval contains the value; where the map's channel increases, a larger value never gets less of it.", "quantifier": "every map length, every interval and every value", "why_tests_cant": "real-valued inputs, arbitrary maps", "anchors": ["src/colourmap/mod.rs: map_linear_colour, map_linear_spectrum"]}
{"id": "C30", "title": "False-colour output is well formed", "statement": "save_falsecolour and save_log_falsecolour hand the JPEG encoder exactly three bytes per pixel, in pixel order, each triple being the scaled colour of that pixel's luminance; with automatic limits no pixel exceeds the upper limit, and the brightest pixel gets the last colour.", "quantifier": "every image, map and choice of limits", "why_tests_cant": "all images", "anchors": ["src/image.rs: save_falsecolour, save_log_falsecolour"]}
{"id": "C31", "title": "Matrix files round-trip", "statement": "read_matrix applied to the text written by save_matrix returns a matrix of the same shape and the same numbers, provided numbers print and parse back faithfully.", "quantifier": "every shape with at least one row and column and every content", "why_tests_cant": "all shapes and contents", "anchors": ["src/colour_matrix.rs: save_matrix, read_matrix"]}
{"id": "C32", "title": "Colour-matrix files round-trip", "statement": "read_colour_matrix applied to the text written by save_colour_matrix returns a matrix of the same shape whose channels are the values that were printed (i.e. the originals rounded to five decimals), row by row, column by column.", "quantifier": "every shape and content", "why_tests_cant": "all shapes and contents", "anchors": ["src/colour_matrix.rs: save_colour_matrix, read_colour_matrix", "src/colour.rs: Display for Spectrum"]}
{"id": "C33", "title": "Scalar and colour matrix files are never confused", "statement": "read_matrix returns an error on every file written by save_colour_matrix and read_colour_matrix returns an error on every file written by save_matrix.", "quantifier": "every matrix of every shape", "why_tests_cant": "all shapes and contents", "anchors": ["src/colour_matrix.rs: read_matrix, read_colour_matrix"]}
{"id": "C34", "title": "Malformed matrix files are reported, not misread", "statement": "A matrix file whose number of data rows differs from NROWS is rejected with an error.", "quantifier": "every file", "why_tests_cant": "all files", "anchors": ["src/colour_matrix.rs: read_matrix, read_colour_matrix"]}
{"id": "C35", "title": "Matrix radiance and luminance conversions are pointwise linear", "statement": "colour_matrix_to_radiance / to_luminance keep the shape, luminance is 179 times radiance at each entry, a gray entry's radiance is its value, and average_matrix returns one row holding the mean of each column; radiance lies between the smallest and the largest channel.", "quantifier": "every matrix", "why_tests_cant": "all shapes and contents", "anchors": ["src/colour_matrix.rs: colour_matrix_to_radiance, colour_matrix_to_luminance, average_matrix", "src/colour.rs: radiance, luminance"]}
{"id": "C36", "title": "A camera ray comes back to the pixel it was generated for", "statement": "pixel_from_ray(gen_ray(sample at pixel p)) = p with weight 1.", "quantifier": "every film resolution, field of view, orthonormal view and every pixel", "why_tests_cant": "all resolutions; the library's own test uses one film", "anchors": ["src/camera/pinhole.rs: gen_ray, pixel_from_ray"]}
{"id": "C37", "title": "Camera rays are well formed and distinct", "statement": "Every ray generated by the pinhole camera starts at the view point, has unit direction, points into the viewing half-space, has weight 1, and two different pixels get different directions; the central symmetry of the film is respected.", "quantifier": "every film, view and pixel", "why_tests_cant": "all resolutions and views", "anchors": ["src/camera/pinhole.rs: gen_ray, new"]}
{"id": "C38", "title": "Random camera samples address real pixels", "statement": "gen_random_sample yields a pixel inside the film for every random outcome on a non-empty film, and pixel_index maps the film's pixels one-to-one onto 0..width*height.", "quantifier": "every film with positive width and height and every random draw", "why_tests_cant": "all random outcomes", "anchors": ["src/camera/camera_trait.rs: gen_random_sample", "src/camera/pinhole.rs: pixel_index"]}
{"id": "C39", "title": "render paints every pixel exactly once whatever the schedule", "statement": "In every interleaving of the parallel chunk workers, when render returns, the pixel (x,y) of the image holds the radiance computed for the ray generated at (x,y), every pixel is written exactly once and no other location is written.", "quantifier": "every image size, every chunk length, every interleaving of workers", "why_tests_cant": "interleavings and sizes are unbounded; tests see one schedule", "anchors": ["src/ray_tracer.rs: RayTracer::render"]}
{"id": "C40", "title": "Pixel coordinates are exact", "statement": "The row computed in floating point, floor(index as Float / width as Float), equals the integer quotient, and x = index - y*width is below width, for every index below 2^53 (2^24 for the f32 build).", "quantifier": "every width and every pixel index below the mantissa limit, with round-to-nearest division", "why_tests_cant": "2^53 indices times all widths", "anchors": ["src/ray_tracer.rs: render"]}
{"id": "C41", "title": "Progress accounting", "statement": "In every schedule of render (and calc_dc) the shared counter, after the workers finish, equals the number of processed pixels (rays), each reported percentage is between 0 and 100, reports are strictly increasing, what was last reported is at most one per cent behind whenever no worker is counting, and 99 or 100 in the end.", "quantifier": "every interleaving of the workers and every number of pixels", "why_tests_cant": "interleavings", "anchors": ["src/ray_tracer.rs: render", "src/daylight_coefficients.rs: calc_dc"]}
{"id": "C42", "title": "Progress locks never deadlock", "statement": "In every reachable state of the parallel loop in which some worker has not finished, some worker can take a step; every schedule finishes after a bounded number of steps.", "quantifier": "every number of workers and pixels and every interleaving", "why_tests_cant": "interleavings", "anchors": ["src/ray_tracer.rs: render", "src/daylight_coefficients.rs: calc_dc"]}
{"id": "C43", "title": "Mirror reflection", "statement": "mirror_direction preserves length, flips the normal component, keeps the tangential one, is an involution, and keeps the reflected ray on the side of the incident one.", "quantifier": "every direction and unit normal", "why_tests_cant": "real-valued inputs", "anchors": ["src/material/specular.rs: mirror_direction"]}
{"id": "C44", "title": "Snell's law and total internal reflection", "statement": "cos_and_n reports no transmission exactly when n1/n2*sin1 > 1; otherwise the returned cosine satisfies Snell's law n1 sin1 = n2 sin2, where n1 and n2 are the indices of the side the ray comes from and goes to.", "quantifier": "every direction, normal and pair of refraction indices", "why_tests_cant": "real-valued inputs", "anchors": ["src/material/specular.rs: cos_and_n"]}
{"id": "C45", "title": "Refracted direction", "statement": "fresnel_transmission_dir is a unit vector, coplanar with the incident direction and the normal, on the far side of the surface, obeying Snell's law.", "quantifier": "every unit direction, unit normal and indices without total reflection", "why_tests_cant": "real-valued inputs", "anchors": ["src/material/specular.rs: fresnel_transmission_dir"]}
{"id": "C46", "title": "Fresnel reflectance is physical", "statement": "The TE and TM amplitude coefficients lie in [-1,1], the reflectance in [0,1], it is the same when the path is reversed, at normal incidence equals ((n1-n2)/(n1+n2))^2 and equals 1 at grazing incidence.", "quantifier": "every pair of positive indices and every pair of cosines", "why_tests_cant": "real-valued inputs", "anchors": ["src/material/specular.rs: fresnel_te, fresnel_tm, fresnel_reflectance"]}
{"id": "C47", "title": "Dielectric conserves energy", "statement": "The reflected and transmitted fractions chosen by a Dielectric surface are non-negative and sum to at most one (exactly one for a white material, up to the radiance-scaling factor (n2/n1)^2), and under total internal reflection everything is reflected.", "quantifier": "every incidence, index and colour in [0,1]", "why_tests_cant": "real-valued inputs", "anchors": ["src/material/dielectric.rs: refl_trans, get_possible_paths"]}
{"id": "C48", "title": "Glass conserves energy", "statement": "For every pane of Glass with channel transmissivity in [0,1], reflectance and transmittance are within [0,1] per channel and their sum never exceeds one.", "quantifier": "every incidence angle, index of refraction >= 1 and transmissivity", "why_tests_cant": "real-valued inputs", "anchors": ["src/material/glass.rs: refl_trans"]}
{"id": "C49", "title": "Mirror colour tints the reflection", "statement": "The specular path returned by a Mirror carries the mirror's colour.", "quantifier": "every colour, direction and normal", "why_tests_cant": "all colours", "anchors": ["src/material/mirror.rs: get_possible_paths, eval_bsdf"]}
{"id": "C50", "title": "Glass evaluates consistently with its paths", "statement": "Glass::eval_bsdf reports a non-zero transmission in the straight-through direction exactly when get_possible_paths offers a transmitted path.", "quantifier": "every glass, direction and normal", "why_tests_cant": "all inputs", "anchors": ["src/material/glass.rs: eval_bsdf, get_possible_paths"]}
{"id": "C51", "title": "Ward-type BSDFs are non-negative, reciprocal and diffuse when specularity is zero", "statement": "evaluate_ward_aniso is non-negative on the reflection side; swapping incident and outgoing direction leaves the specular part unchanged; with zero specularity the value is the diffuse term 1/pi in every direction.", "quantifier": "every roughness, specularity and pair of directions", "why_tests_cant": "real-valued inputs", "anchors": ["src/material/ward.rs: evaluate_ward_aniso"]}
{"id": "C52", "title": "Leaving a dielectric undoes entering it", "statement": "A ray refracted into a dielectric and refracted out through a parallel face continues in its original direction, and the product of the (n2/n1)^2 factors is one.", "quantifier": "every direction, normal and index without total reflection", "why_tests_cant": "real-valued inputs", "anchors": ["src/material/specular.rs: fresnel_transmission_dir", "src/material/dielectric.rs"]}
{"id": "C53", "title": "Triangle samples lie in the triangle", "statement": "uniform_sample_triangle / sample_triangle_surface always returns a point of the triangle, for every pair of random draws in [0,1].", "quantifier": "every triangle and every pair of draws", "why_tests_cant": "continuum of draws", "anchors": ["src/samplers.rs: uniform_sample_triangle", "src/primitive_samplers.rs: sample_triangle_surface"]}
{"id": "C54", "title": "Local/world change of basis is an isometry", "statement": "local_to_world maps (x,y,z) in an orthonormal frame to a vector with the same length, whose components in the frame are x,y,z.", "quantifier": "every orthonormal frame, every local vector", "why_tests_cant": "real-valued inputs", "anchors": ["src/samplers.rs: local_to_world"]}
{"id": "C55", "title": "Hemisphere samples are unit vectors on the right side", "statement": "cosine and uniform hemisphere samplers return unit vectors with non-negative component along the normal; the uniform sphere sampler returns unit vectors.", "quantifier": "every frame and pair of draws in [0,1]", "why_tests_cant": "continuum of draws", "anchors": ["src/samplers.rs: sample_cosine_weighted_horizontal_hemisphere, cosine_weighted_sample_hemisphere, uniform_sample_hemisphere, uniform_sample_sphere"]}
{"id": "C56", "title": "Disc and sphere-surface samples are on their primitive", "statement": "uniform_sample_disc returns points in the plane of the disc within the radius; sample_sphere_surface returns points at distance radius*(1-1e-5) from the centre.", "quantifier": "every disc, sphere and pair of draws", "why_tests_cant": "continuum of draws", "anchors": ["src/samplers.rs: uniform_sample_disc, uniform_sample_horizontal_disc", "src/primitive_samplers.rs: sample_sphere_surface"]}
{"id": "C57", "title": "Path depth is bounded", "statement": "trace_ray never recurses deeper than max_depth+1 and never indexes the per-depth scratch rays out of range when max_depth <= 14; with max_depth >= 15 a scene exists that panics.", "quantifier": "every scene, random stream and max_depth", "why_tests_cant": "unbounded recursion trees", "anchors": ["src/ray_tracer.rs: trace_ray, get_global_illumination, RayTracerHelper::default"]}
{"id": "C58", "title": "calc_dc rows are independent and well shaped", "statement": "calc_dc returns a matrix with one row per sensor ray and one column per sky bin, row i being the sum of the contributions of the primary samples of ray i only.", "quantifier": "every list of rays, sky discretisation, sample counts and schedule", "why_tests_cant": "all sizes and schedules", "anchors": ["src/daylight_coefficients.rs: calc_dc"]}
{"id": "C59", "title": "An unobstructed sensor collects pi", "statement": "In an empty scene every row of calc_dc sums to pi in each channel, every sample being counted in exactly one bin.", "quantifier": "every list of rays, number of ambient samples and random stream", "why_tests_cant": "continuum of draws", "anchors": ["src/daylight_coefficients.rs: calc_dc, trace_ray"]}
{"id": "C60", "title": "Ambient sampling terminates", "statement": "get_global_illumination takes finitely many samples.", "quantifier": "every scene and every random stream", "why_tests_cant": "liveness over infinite random streams", "anchors": ["src/ray_tracer.rs: get_global_illumination"]}
{"id": "C61", "title": "Ambient samples of the daylight-coefficient tracer are independent", "statement": "At a diffuse surface every ambient sample starts from the same incoming ray: the contribution of a sample does not depend on the samples taken before it.", "quantifier": "every scene and random stream", "why_tests_cant": "history dependence", "anchors": ["src/daylight_coefficients.rs: trace_ray"]}
{"id": "C62", "title": "Lights are seen directly", "statement": "A camera ray whose nearest hit is an emitting material returns exactly that material's colour, whatever the depth; a ray that misses returns the sky colour or black; the result does not depend on random draws.", "quantifier": "every scene, ray, and random stream", "why_tests_cant": "all scenes", "anchors": ["src/ray_tracer.rs: trace_ray"]}
{"id": "C63", "title": "Shadow rays", "statement": "A light sample contributes only if the point sampled is unobstructed, and with n samples the direct contribution is the average of n admissible samples.", "quantifier": "every scene, light and random stream", "why_tests_cant": "continuum of draws", "anchors": ["src/ray_tracer.rs: sample_light_array, get_local_illumination"]}
{"id": "C64", "title": "Number of ambient samples and Russian roulette", "statement": "get_n_ambient_samples returns 0 when ambient bounces are disabled, the maximum at depth 0, and 0 or 1 elsewhere; it is 1 surely when the ray value is at least the limit; the expected compensated value equals the ray value.", "quantifier": "every ray state, parameters and random draw", "why_tests_cant": "continuum of draws", "anchors": ["src/ray.rs: get_n_ambient_samples"]}
{"id": "C65", "title": "Radiance scanner always progresses and never overruns", "statement": "Scene::from_radiance (the scanner) terminates on every byte string, never reads past the end, and the line number in its error messages is the number of newlines consumed.", "quantifier": "every byte string", "why_tests_cant": "all inputs", "anchors": ["src/from_radiance.rs: RadianceReader::consume_whitespace, consume_non_white, consume_token, is_done"]}
{"id": "C66", "title": "Modifier names resolve to the material they name", "statement": "Throughout reading a Radiance file the list of modifier names is aligned with the scene's materials, and each object gets the first material defined under its modifier's name; an unknown modifier is an error.", "quantifier": "every input text", "why_tests_cant": "all inputs", "anchors": ["src/from_radiance.rs: consume_object, get_modifier / push_modifier"]}
{"id": "C67", "title": "Layout does not matter", "statement": "Two Radiance texts with the same sequence of tokens (differing only in the amount and kind of white space between tokens) produce the same scene.", "quantifier": "every token sequence and every white space", "why_tests_cant": "all layouts", "anchors": ["src/from_radiance.rs: consume_token"]}
{"id": "C68", "title": "OBJ faces become the right triangles", "statement": "Every OBJ face with three vertices yields one triangle and every face with four yields two that share the diagonal, in winding order; faces with more vertices are skipped; all vertices come from the face.", "quantifier": "every face list", "why_tests_cant": "all meshes", "anchors": ["src/from_obj.rs"]}
{"id": "C69", "title": "SIMPLE-model materials", "statement": "Every surface and fenestration of a SIMPLE model is pushed with in-range material indices taken from its own construction: front material from the first layer and back material from the last.", "quantifier": "every model", "why_tests_cant": "all models", "anchors": ["src/from_simple_model.rs"]}
{"id": "C70", "title": "Spectrum arithmetic is channelwise", "statement": "Spectrum operations act channel by channel: they form a commutative semiring-like algebra, compound assignments agree with their operators, division undoes multiplication by non-zero scalars, normalize makes radiance 1, and is_black is true exactly when every channel is below 1e-24.", "quantifier": "every spectrum", "why_tests_cant": "real-valued inputs", "anchors": ["src/colour.rs: impl ops for Spectrum, is_black, normalize, radiance, luminance"]}
{"id": "C71", "title": "The sun's zenith angle is clamped to 3..90 degrees", "statement": "The zenith angle from which Scene::add_perez_sky computes the sun's brightness is the sun's own zenith angle, limited to at least 3 and at most 90 degrees; in particular it depends monotonically on the sun's height.", "quantifier": "every sun position", "why_tests_cant": "the branch depends on a real-valued direction; sampled suns rarely land in the 3 degree cone", "anchors": ["src/scene.rs: add_perez_sky"]}
{"id": "C72", "title": "Camera rays fill the requested field of view", "statement": "For every view direction, every up vector not parallel to it and every field of view, the tangent of the horizontal angle of the ray of pixel column x is (2x+1-w)/w times the tangent of half the field of view, and rows are spaced like columns.", "quantifier": "every view, film and pixel", "why_tests_cant": "an identity over real-valued views and all film sizes", "anchors": ["src/camera/pinhole.rs: Pinhole::new, gen_ray", "bin/spict.rs"]}
{"id": "C73", "title": "A dielectric's tint is applied once per crossing", "statement": "In the daylight-coefficient matrix, light that reaches a sensor through one interface of a tinted dielectric is attenuated by the tint once: doubling a tint channel doubles the transmitted coefficient of that channel.", "quantifier": "every dielectric, incidence and tint", "why_tests_cant": "the factor is scattered over two functions, each of which looks right on its own", "anchors": ["src/daylight_coefficients.rs: trace_ray", "src/material/dielectric.rs: get_possible_paths"]}
{"id": "C74", "title": "Sampled reflections leave the surface on the side they arrived from", "statement": "Whenever sample_bsdf of a plastic or metal returns a direction, the direction is on the same side of the surface as the eye, and sample_bsdf always returns.", "quantifier": "every incoming direction, roughness, specularity and all random draws", "why_tests_cant": "quantifies over every pair of real draws and every incidence angle", "anchors": ["src/material/ward.rs: sample_ward_anisotropic", "src/material/plastic.rs", "src/material/metal.rs"]}
{"id": "C75", "title": "Ambient samples of trace_ray start from the same ray", "statement": "At a diffuse surface every ambient sample is drawn for the same incoming ray (same depth, weight, colour and medium), whatever the samples before it did, and the answer of trace_ray does not depend on what earlier traces left in the scratch memory.", "quantifier": "every scene, ray, scratch memory, sequence of random draws and recursion depth", "why_tests_cant": "the scratch memory is shared by all recursion levels; independence is a frame property over the whole recursion tree", "anchors": ["src/ray_tracer.rs: get_global_illumination, RayTracerHelper"]}
{"id": "C76", "title": "Radiance across a dielectric interface follows the n^2 law", "statement": "Seen from a medium of index n1 through an interface, radiance of a medium of index n2 appears multiplied by (n1/n2)^2 times the transmittance.", "quantifier": "every pair of indices and incidence angle below the critical one", "why_tests_cant": "a law over all pairs of real indices", "anchors": ["src/material/dielectric.rs: get_possible_paths"]}
{"id": "C77", "title": "The sky lights diffuse surfaces", "statement": "The radiance trace_ray returns for a ray that hits a diffuse surface open to the sky grows with the sky's brightness.", "quantifier": "every scene, sky and sequence of random draws", "why_tests_cant": "the statement is about all executions of a sampling loop", "anchors": ["src/ray_tracer.rs: trace_ray, get_global_illumination"]}
{"id": "C78", "title": "Samplers have the advertised distribution", "statement": "The samplers draw with the densities their callers divide by: for every measurable set, the probability that a sampled point of a disc (flat or anywhere in space) or of a triangle falls in it is its share of the area; that a sampled direction of the hemisphere or sphere falls in it is its share of the solid angle; that a cosine-weighted direction falls in it is the integral of the cosine over it divided by pi.", "quantifier": "every measurable set of points or directions, every disc, triangle and basis", "why_tests_cant": "a statement about probabilities of all measurable sets; tests see finitely many draws", "anchors": ["src/samplers.rs"]}
{"id": "C79", "title": "Light samplers draw directions with the density they report", "statement": "The probability with which the direction sampler of a light draws a direction inside a given set of directions equals the integral over the set of the density the light reports for shadow rays.", "quantifier": "every light, reference point and set of directions", "why_tests_cant": "a statement about measures over all real draws", "anchors": ["src/primitive.rs: sample_direction", "src/primitive_samplers.rs", "src/triangle.rs: intersect_pdf"]}
{"id": "C80", "title": "A row of daylight coefficients never exceeds pi", "statement": "In a scene whose surfaces emit nothing and reflect at most what they receive, the coefficients in each row returned by calc_dc sum to at most pi per channel: a sensor cannot collect more than a uniform sky of unit radiance delivers.", "quantifier": "every scene, sensor, sampling configuration and sequence of random draws", "why_tests_cant": "energy conservation over the whole recursion tree and all draws", "anchors": ["src/daylight_coefficients.rs: calc_dc, trace_ray"]}
{"id": "C81", "title": "Substances are added once", "statement": "When a scene is built from a SIMPLE model, a substance that has been added to the scene before (by name) is not added again: every later use refers to the material added first.", "quantifier": "every model", "why_tests_cant": "a statement about all pairs of uses in all models", "anchors": ["src/from_simple_model.rs: SimpleModelReader::push_substance (documentation), get_modifier_index"]}
{"id": "C82", "title": "Both wavelength ranges are supported", "statement": "Scene::from_simple_model builds a scene from every well-formed SIMPLE model for each of the wavelength ranges it offers, Solar and Visible.", "quantifier": "every model and wavelength range", "why_tests_cant": "a totality statement over all models", "anchors": ["src/scene.rs: from_simple_model, Wavelengths", "src/from_simple_model.rs: build_scene"]}
{"id": "C83", "title": "Glazing transmits what the model says", "statement": "A substance of a SIMPLE model with solar transmittance tau becomes a glass, and a pane of that glass transmits the fraction tau of light at normal incidence, up to the rounding of the printed constants.", "quantifier": "every transmittance from 0.001 to 1", "why_tests_cant": "a real-valued identity between the reader's formula and the glass model", "anchors": ["src/from_simple_model.rs: transmittance_to_transmissivity, substance_to_material", "src/material/glass.rs: refl_trans"]}
{"id": "C84", "title": "Materials of SIMPLE models do not create energy", "statement": "Every substance with absorptance between 0 and 1 and transmittance between 0 and 1 becomes a material whose reflectance and transmittance add up to at most 1 in every channel.", "quantifier": "every substance and incidence", "why_tests_cant": "an inequality over real-valued substances and directions", "anchors": ["src/from_simple_model.rs: substance_to_material", "src/material/glass.rs: refl_trans"]}
{"id": "C85", "title": "The sun of the Perez sky delivers the direct illuminance", "statement": "When the sun is up, Scene::add_perez_sky adds exactly one grey light and one distant source in the sun's direction, whose luminance times the solid angle of the 0.533 degree disc is the direct normal irradiance times the luminous efficacy of the Perez model; everything else but the sky is unchanged, and at night only the sky changes.", "quantifier": "every scene, date, place and irradiance", "why_tests_cant": "an identity over real-valued weather data and all scenes", "anchors": ["src/scene.rs: add_perez_sky"]}
{"id": "C86", "title": "Turning every light up by a factor multiplies the picture by it", "statement": "If every light material and the sky are made k times as bright and nothing else changes, then tracing any ray with the same random numbers returns exactly k times the colour, the same probability, consumes the same random numbers, and panics or fails to end exactly when it did before.", "quantifier": "every scene, factor, ray, tracer settings and random sequence", "why_tests_cant": "an equality between two executions over unbounded recursion and all scenes", "anchors": ["src/ray_tracer.rs: trace_ray, get_local_illumination, sample_light_array, get_global_illumination, intersect_light"]}
{"id": "C87", "title": "Without light there is no image", "statement": "In a scene whose light materials are all black and whose sky is black or missing, every ray that returns brings back exactly black, whatever the materials and shapes of the other surfaces: nothing but lights and the sky creates light.", "quantifier": "every scene without light, ray, tracer settings and random sequence", "why_tests_cant": "ranges over all scenes and all random sequences, with unbounded recursion", "anchors": ["src/ray_tracer.rs: trace_ray, intersect_light"]}
{"id": "C88", "title": "spict takes exactly three numbers for points and directions", "statement": "The view point, view direction and view up given to spict are accepted exactly when they are three numbers separated by single spaces, surrounded by any white space, and are taken in the order x, y, z; what the program prints for such a triple is read back as the same triple.", "quantifier": "every argument text", "why_tests_cant": "ranges over all strings", "anchors": ["bin/spict.rs: Triplet::from_str, Display for Triplet"]}
{"id": "C89", "title": "sfluxmtx reads one sensor per line or reports an error", "statement": "sfluxmtx makes one sensor of every line of its standard input, in order, at the position and in the (normalised) direction the line gives; if a line is not six numbers separated by single spaces, it stops with an error and computes nothing.", "quantifier": "every content of the standard input", "why_tests_cant": "ranges over all byte strings", "anchors": ["bin/sfluxmtx.rs: main"]}
{"id": "C90", "title": "scompare writes the difference of two images or reports an error", "statement": "Given two image files of the same size, scompare writes an HDR file of that size whose pixels are the absolute differences of the radiances; the order of the files does not matter; an image compared with itself gives black; unreadable files or different sizes end the program with an error, never with a crash.", "quantifier": "every pair of files", "why_tests_cant": "ranges over all pairs of byte strings", "anchors": ["bin/scompare.rs: main", "bin/sfalsecolor.rs: main", "src/image.rs: diff, save_hdre, from_file"]}
{"id": "C91", "title": "The picture spict writes shows what the camera sees", "statement": "Whatever the schedule of the worker threads, spict ends with an HDR file of the requested size in which the pixel of column x and row y is what trace_ray returned for the camera's ray through it: pixels that look at a light show its colour and pixels that look past everything show the sky, up to the precision of the format and whatever the random numbers; the file depends only on the seeds and not on the schedule, a scene without light gives a black picture, and turning all lights up by a factor multiplies all pixels by it.", "quantifier": "every scene, view, size, schedule and random sequence", "why_tests_cant": "ranges over all interleavings, scenes and random sequences", "anchors": ["bin/spict.rs: main", "src/ray_tracer.rs: render", "src/camera/pinhole.rs: gen_ray", "src/image.rs: save_hdre"]}
{"id": "C92", "title": "Rendering does not crash", "statement": "Once a scene has been built, with material constants, lights and shapes accepted by the API, tracing a ray never panics, whatever the ray, the random numbers, the number of samples and of bounces (up to the depth the scratch memory has room for), and so no pixel of a picture does.", "quantifier": "every history of API calls, ray, settings and random sequence", "why_tests_cant": "ranges over all scenes and random sequences, with unbounded recursion", "anchors": ["src/ray_tracer.rs: trace_ray, get_local_illumination, get_global_illumination, sample_light_array", "src/primitive_samplers", "src/material"]}
{"id": "C93", "title": "Light is never negative", "statement": "If no colour, light or sky value given is negative and material constants make physical sense, no ray brings back a negative amount of light in any channel, and no pixel of a picture is negative.", "quantifier": "every scene of materials that make physical sense, ray, settings and random sequence", "why_tests_cant": "ranges over all scenes and random sequences, with unbounded recursion", "anchors": ["src/ray_tracer.rs: trace_ray, get_local_illumination, get_global_illumination", "src/material/ward.rs", "src/interaction.rs: interpolate_normal"]}
{"id": "C94", "title": "Daylight coefficients: no crash, never negative", "statement": "In a built scene whose materials and shapes were accepted by the API, computing daylight coefficients never panics, whatever the sensors, settings (with fewer bounces than the scratch memory has room for) and random numbers, and nor does sfluxmtx, unless a line gives the direction 0 0 0; and if material constants make physical sense, no coefficient is negative.", "quantifier": "every scene, list of sensors of unit direction, settings and random sequences", "why_tests_cant": "ranges over all scenes and random sequences, with unbounded recursion", "anchors": ["src/daylight_coefficients.rs: calc_dc, trace_ray"]}
{"id": "C95", "title": "sfluxmtx end to end", "statement": "sfluxmtx writes a matrix file that reads back with one row per line of sensor input, in order, and one column per sky patch; entry (i, j) is, to five decimals, the sum of the samples of sensor i that ended in patch j. A line that is not six numbers makes it fail without writing. With nothing in the scene each row adds up the patches its sampled directions fall in, each with weight pi/n.", "quantifier": "every scene, sensor text, settings and random sequences", "why_tests_cant": "ranges over all texts, scenes and random sequences", "anchors": ["bin/sfluxmtx.rs: main", "src/daylight_coefficients.rs: calc_dc", "src/colour_matrix.rs: save_colour_matrix, read_colour_matrix"]}
{"id": "C96", "title": "Daylight coefficients are computed in finite time", "statement": "calc_dc returns a matrix with a row per sensor and a column per patch for every scene, sensors, settings and random numbers, and so sfluxmtx, given well-formed lines, runs to the end and writes a readable file with a row per line.", "quantifier": "every scene, list of sensors of unit direction, settings and random sequences", "why_tests_cant": "termination is about all scenes and random sequences; a test that returns says nothing about the next one", "anchors": ["src/daylight_coefficients.rs: calc_dc, trace_ray", "bin/sfluxmtx.rs: main"]}
{"id": "C97", "title": "Sampling a reflecting surface estimates the light it reflects", "statement": "When a surface is sampled, the average over the random numbers of incoming light times bsdf times cosine over density is the light the surface reflects: the integral over the hemisphere of the incoming light, times the bsdf, times the cosine.", "quantifier": "every matt or glossy surface, incoming direction and distribution of incoming light", "why_tests_cant": "a statement about averages over all random numbers and all lights", "anchors": ["src/material/mod.rs: sample_bsdf", "src/material/ward.rs: sample_ward_anisotropic"]}
{"id": "C98", "title": "Without bounces, daylight coefficients are on average the sky each sensor sees", "statement": "With max_depth 0 and no mirrors, glass or dielectrics, the mean over the random numbers of the coefficient of sky patch j at a sensor is the integral of the cosine with the sensor's direction over the directions of patch j in which no triangle is in the way.", "quantifier": "every scene, sensor, division of the sky into patches, number of samples and random sequences of the others", "why_tests_cant": "a statement about averages over all random numbers, for all scenes", "anchors": ["src/daylight_coefficients.rs: calc_dc, trace_ray", "src/samplers.rs: sample_cosine_weighted_horizontal_hemisphere"]}
{"id": "C99", "title": "Evaluating a mirror or dielectric agrees with the paths it offers", "statement": "What a mirror or a dielectric reflects or transmits in the direction of a path it offers, times the cosine of that direction with the normal, is the weight of the path; in every other direction it is nothing.", "quantifier": "every mirror and dielectric, colour, index of refraction, incoming ray and direction", "why_tests_cant": "ranges over all directions and indices; the tests compare a handful", "anchors": ["src/material/dielectric.rs: eval_bsdf, get_possible_paths", "src/material/mirror.rs: eval_bsdf", "src/material/specular.rs: eval_mirror_bsdf"]}
{"id": "C100", "title": "Direct sunlight on matt surfaces", "statement": "The light seen on a matt surface lit by one sun that stands above its horizon is, on average over the random numbers, the integral over the part of the sun's disc not hidden by any object of the sun's radiance times the colour over pi times the cosine, to within two parts in a hundred thousand for suns no wider than a hundredth of a radian, whatever the number of shadow samples.", "quantifier": "every scene with one distant source, matt surface, colour, position of the sun and number of shadow samples", "why_tests_cant": "a statement about averages over all random numbers, for all scenes", "anchors": ["src/ray_tracer.rs: trace_ray, get_local_illumination, sample_light_array", "src/primitive_samplers.rs: source_solid_angle_pdf, source_direction", "src/samplers.rs"]}
{"id": "C101", "title": "The accelerator divides triangles by the surface area heuristic", "statement": "Wherever the accelerator divides a group of more than four triangles it is at the cheapest of eleven places along the longest axis, counting for each part the number of triangles times the surface of the box around them; a group is left undivided only if no place is cheaper than testing its triangles one by one, or if they are all in the same place; and so no leaf has more than twenty four triangles unless that many are in the same place.", "quantifier": "every list of triangles and outcome of the unstable sorts", "why_tests_cant": "answers of queries do not depend on it (C07), so that no test of answers can see it; it ranges over all scenes", "anchors": ["src/bvh.rs: BoundingVolumeTree::new, Node::recursive_build, get_bucket_index"]}
{"id": "C102", "title": "False-colour pictures show the luminances of the image read", "statement": "sfalsecolor, for every image file that can be read, writes a picture of the same size in which each pixel has the colour of its luminance on the chosen scale, from the minimum to the maximum asked for (by default from nothing, or 0.001 on logarithmic scales, to the brightest pixel), linear or logarithmic as asked; scompare with a colour map writes the same for the differences of two images of the same size.", "quantifier": "every image file, limits, scale and colour map", "why_tests_cant": "ranges over all images and options; a test compares a few pictures", "anchors": ["bin/sfalsecolor.rs: main", "bin/scompare.rs: main", "src/image.rs: save_falsecolour, save_log_falsecolour, diff"]}
{"id": "C103", "title": "The programs trace the scene described by the file", "statement": "The scene that spict and sfluxmtx load from a file has exactly the surfaces and lights its text describes, each with the first material defined under the name of its modifier; every ray traced in it meets the nearest of those surfaces and is given the light of that material, or meets nothing if none of them is in its way; and so lights of the text that are in view appear in the picture.", "quantifier": "every scene file, ray and camera", "why_tests_cant": "ranges over all texts and rays", "anchors": ["bin/spict.rs: main", "bin/sfluxmtx.rs: main", "src/from_radiance.rs: from_radiance_source", "src/scene.rs: build_accelerator, cast_ray"]}
{"id": "C104", "title": "Tracing ends with probability one when specular bounces may count", "statement": "When bounces off mirrors and through glass are counted with a positive probability (count_specular_bounce), tracing any ray in a scene that has been built ends with probability one, the random numbers being independent and uniform.", "quantifier": "every scene, ray, settings and almost every sequence of random numbers", "why_tests_cant": "a statement about the probability of endless executions: no test can observe one, and a run that ends shows nothing about the others", "anchors": ["src/ray_tracer.rs: trace_ray (specular paths, count_specular_bounce)", "src/material/glass.rs: get_possible_paths", "src/material/mirror.rs: get_possible_paths", "src/material/dielectric.rs: get_possible_paths"]}
{"id": "C105", "title": "The noise of daylight coefficients falls with the number of samples", "statement": "With max_depth 0 and no mirrors, glass or dielectrics, the probability that the coefficient of sky patch j at a sensor, computed with n samples, differs by e or more from the integral of the cosine over the part of the patch the sensor sees is at most 2 exp(-2 n e^2 / pi^2).", "quantifier": "every scene, sensor, division of the sky into patches, number of samples and error", "why_tests_cant": "a statement about the probability of errors, over all random numbers and all scenes", "anchors": ["src/daylight_coefficients.rs: calc_dc, trace_ray", "src/samplers.rs: sample_cosine_weighted_horizontal_hemisphere"]}
{"id": "C106", "title": "The noise of sunlight falls with the number of shadow samples", "statement": "On a matt surface lit by one sun that stands above its horizon, the probability that the light computed with n shadow samples is more than e times the light of an unhidden, perpendicular sun away from the integral over the part of the sun that is not hidden (up to two parts in a hundred thousand) is at most 2 exp(-2 n e^2).", "quantifier": "every scene with one distant source, matt surface, colour, position of the sun, number of shadow samples and error", "why_tests_cant": "a statement about the probability of errors, over all random numbers and all scenes", "anchors": ["src/ray_tracer.rs: trace_ray, get_local_illumination, sample_light_array", "src/primitive_samplers.rs: source_direction, source_solid_angle_pdf"]}
{"id": "C107", "title": "The way to a light", "statement": "From any point other than a triangle's centroid or a sphere's centre, Primitive::direction gives a unit direction and a distance that lead to the triangle's centroid, or to the point of the sphere nearest to the given one (the distance is negative exactly for points inside the sphere); every direction sampled towards a sphere from outside lies in the cone around that direction that just contains the sphere. The direction to a distant source is the same from everywhere. For cylinders the call panics.", "quantifier": "every triangle, sphere, distant source, point and random numbers", "why_tests_cant": "ranges over all real positions, sizes and random numbers", "anchors": ["src/primitive.rs: direction, sample_direction", "src/primitive_samplers.rs: triangle_direction, sphere_direction, source_direction, sample_sphere_surface"]}
{"id": "C108", "title": "A scene is the same everywhere", "statement": "Displacing every object of a scene and the viewer by the same vector changes nothing: the same calls succeed, displaced rays meet the same triangles at the displaced points, tracing with the same random numbers gives the same light, and the picture taken from the displaced view point is the same.", "quantifier": "every history of scene calls, displacement, ray, picture, settings and random numbers", "why_tests_cant": "relates two executions for all scenes, displacements and random numbers", "anchors": ["src/scene.rs: push_object, build_accelerator, cast_ray, unobstructed_distance", "src/bvh.rs: new, intersect, unobstructed_distance", "src/triangle.rs: mesh_sphere, triangle_solid_angle_pdf", "src/primitive_samplers.rs: triangle_solid_angle_pdf", "src/ray_tracer.rs: trace_ray, render"]}
{"id": "C109", "title": "Materials matter by what they are, not by their numbers", "statement": "Two sequences of calls that push the same objects (with equal materials on each side), builds and skies in the same order, but push the materials in another order, at other moments, twice or in vain, crash or succeed alike, and the resulting scenes answer alike: cast_ray, unobstructed_distance, trace_ray (same random numbers), calc_dc and the pictures of spict.", "quantifier": "every pair of call sequences that differ only in the numbering of materials, every query, every random stream", "why_tests_cant": "quantifies over histories and over all scenes and rays", "anchors": ["src/scene.rs: Scene::push_material, push_object, add_perez_sky", "src/ray_tracer.rs: trace_ray, intersect_light", "src/daylight_coefficients.rs: calc_dc"]}
{"id": "C110", "title": "RGBE files are faithful in double precision", "statement": "With every operation rounded to double precision, and a mathematics library whose log2 and exp2 are within 0.55 units in the last place, every pixel with largest channel between 1e-18 and 2^126 comes back from an RGBE file within one step of the format (1/128 of the largest channel, up to one part in 1e9) and no channel comes back brighter (up to one part in 1e9); pixels below the threshold come back black.", "quantifier": "every triple of non-negative doubles in range, every library with the stated accuracy", "why_tests_cant": "2^192 pixels, and the rounding of every operation of every conforming library", "anchors": ["src/image.rs: rusty_frexp, rusty_ldexp, colour_to_rgbe, rgbe_to_colour"]}
{"id": "C111", "title": "Rays do not slip through walls", "statement": "With every operation rounded to double precision, the ray/triangle test misses no hit and invents none: a ray that goes through the middle of a wall hits one of the triangles the wall is made of, and a ray reported to hit a triangle goes through it.", "quantifier": "every triangle and ray with double precision coordinates up to 5000 in size and direction components up to one", "why_tests_cant": "2^960 combinations of doubles; the failing ones are slivers along the edges", "anchors": ["src/triangle.rs: baricentric_coorinates, triangle_intersect, simple_triangle_intersect, cross, dot"]}
{"id": "C112", "title": "Surfaces do not glow", "statement": "In a flat-shaded scene lit only by suns, no ray brings back more light than the suns can supply: if every surface is matt and reflects at most rho of a channel, a ray that meets a surface returns at most rho E/pi (1 + rho + ... + rho^max_depth), where E is the sum of radiance times solid angle over the suns, and hence at most rho E/(pi (1-rho)); with mirrors and panes of glass in the scene, at most the brighter of that and the brightest point of the sky. The same holds for every pixel of every picture.", "quantifier": "every scene, ray, setting, sky, sequence of random numbers, number of bounces and schedule; not on average, but for each ray", "why_tests_cant": "a bound on every random walk in every scene", "anchors": ["src/ray_tracer.rs: trace_ray, get_local_illumination, get_global_illumination, sample_light_array, render", "src/material/ward.rs", "src/material/mirror.rs", "src/material/glass.rs"]}
{"id": "C113", "title": "Only rays that the camera sees belong to a pixel", "statement": "pixel_from_ray gives weight one to a ray from the view point exactly if the ray leaves the camera through a pixel of the picture, and then names that pixel; every other ray gets weight zero.", "quantifier": "every camera, film resolution and direction", "why_tests_cant": "all directions; the library's own test only uses rays generated by the camera itself", "anchors": ["src/camera/pinhole.rs: pixel_from_ray, gen_ray"]}
{"id": "C114", "title": "The light of two groups of lamps adds up", "statement": "Divide the light of a scene among two copies of it: every light emits in the scene what it emits in the two copies together (for instance, one group of lamps is switched off in each copy), and so does the sky. Then the three are built or refused together, a ray traced with the same random numbers brings the sum of what it brings in the copies, and every pixel of a picture is the sum of that pixel in the pictures of the copies.", "quantifier": "every scene, every division of the emission, every ray, setting, random stream and schedule", "why_tests_cant": "quantifies over all scenes and random numbers; relates three executions", "anchors": ["src/ray_tracer.rs: trace_ray, sample_light_array, intersect_light, get_global_illumination, render", "src/scene.rs: push_object, add_perez_sky"]}
{"id": "C115", "title": "Obstacles only take light away", "statement": "Pushing further objects that do not emit light never makes a ray miss what it would have hit or hit it farther away, never brings a hidden point into view, never increases the direct light at a point of a plastic or metal surface (same random numbers), and never increases a daylight coefficient computed without interreflections.", "quantifier": "every scene, every list of further objects, every ray clear of the edge tolerance, every material, light, random stream and sensor", "why_tests_cant": "relates two scenes of any size; a monotonicity over all extensions of a scene", "anchors": ["src/scene.rs: push_object, cast_ray, unobstructed_distance", "src/bvh.rs: intersect, unobstructed_distance", "src/ray_tracer.rs: sample_light_array, intersect_light, get_local_illumination", "src/daylight_coefficients.rs: calc_dc"]}
{"id": "C116", "title": "Casting a ray and asking for a view give the same answer", "statement": "If cast_ray finds nothing along a ray, unobstructed_distance reports every point of the ray in view; if it finds a surface, points well behind the surface are reported hidden; and whenever a point is reported hidden, cast_ray finds a surface in front of it.", "quantifier": "every scene, ray clear of the edge tolerance, and distance; whatever the order of the triangles in the accelerator", "why_tests_cant": "two separate traversals of trees of any shape", "anchors": ["src/bvh.rs: intersect, unobstructed_distance", "src/scene.rs: cast_ray, unobstructed_distance", "src/triangle.rs: triangle_intersect, simple_triangle_intersect"]}
{"id": "C117", "title": "If I can see you, you can see me", "statement": "unobstructed_distance gives the same answer from either end of a segment.", "quantifier": "every scene, segment and length", "why_tests_cant": "all pairs of points in all scenes", "anchors": ["src/scene.rs: unobstructed_distance", "src/bvh.rs: unobstructed_distance"]}
{"id": "C118", "title": "No daylight in a room without windows", "statement": "In a scene that contains the six sides of a closed room, every ray from a point in the room is stopped, whatever else is in the scene; daylight coefficients there are zero, and what a ray brings back does not depend on the sky.", "quantifier": "every room, scene around it, point, direction, sky, setting and sequence of random numbers", "why_tests_cant": "all positions and directions: leaks are slivers", "anchors": ["src/scene.rs: cast_ray", "src/triangle.rs: baricentric_coorinates", "src/bvh.rs: intersect", "src/ray_tracer.rs: trace_ray", "src/daylight_coefficients.rs: calc_dc"]}
{"id": "C119", "title": "The mean picture solves the rendering equation", "statement": "In a scene of matt surfaces under any number of suns, the average of what trace_ray brings back over the random numbers is exactly the light of the rendering equation up to max_depth reflections: at every surface the sunlight it reflects, plus colour/pi times the irradiance integral of the light arriving from the hemisphere, a path below limit_weight being followed with probability weight/limit_weight. So the mean does not depend on the numbers of shadow and ambient samples, raising max_depth never removes light, giving up light paths never adds light, the mean of every pixel of a rendered picture is that light along the camera's ray for every schedule, and the light is at most D (1 + rho + rho^2 + ...) if surfaces reflect at most rho and show at most D of sunlight.", "quantifier": "every such scene of any size, every ray, camera, pixel, channel, schedule, setting with at least one shadow sample, and all sequences of random numbers at once", "why_tests_cant": "an equality of integrals over infinitely many random sequences and over nested hemispheres", "anchors": ["src/ray_tracer.rs: trace_ray, get_local_illumination, get_global_illumination, sample_light_array", "src/material/mat_trait.rs: sample_bsdf, eval_bsdf", "src/samplers.rs: uniform_sample_disc, local_to_world", "src/scene.rs: cast_ray, unobstructed_distance"]}
{"id": "C120", "title": "A sky without brightness changes nothing", "statement": "Adding a sky whose brightness is zero in every direction changes neither the light any ray brings back nor whether tracing it ends.", "quantifier": "every scene without a sky, every ray, setting, sky colour and sequence of random numbers", "why_tests_cant": "relates two executions over all scenes and random numbers; a defect shows only as a bias, or as a loop that never ends", "anchors": ["src/ray_tracer.rs: trace_ray, get_global_illumination", "src/scene.rs: sky, add_perez_sky"]}
{"id": "C121", "title": "Openings to the sky do not change the light that surfaces exchange", "statement": "In a scene of matt surfaces under suns, giving the scene a sky leaves the mean light of the rendering equation along rays that meet surfaces as it was, apart from what the sky itself adds: tracing almost surely ends, and the mean light of reflections between surfaces does not depend on how much of the hemisphere is open to the sky.", "quantifier": "every such scene of any size, every sky and sky colour, ray, channel, setting with at least one shadow sample, and all sequences of random numbers at once", "why_tests_cant": "an equality of integrals over infinitely many random sequences, with a rejection loop without bound inside each of them", "anchors": ["src/ray_tracer.rs: trace_ray, get_global_illumination", "src/scene.rs: cast_ray, sky, add_perez_sky"]}
{"id": "C122", "title": "Tracing deeper approaches the exact light", "statement": "In a scene of matt surfaces under suns the mean picture never exceeds the exact light, the solution of the rendering equation without a limit on reflections, and with limit_weight 0 it misses at most a constant of the scene times rho^(max_depth + 1), if surfaces reflect at most the share rho < 1; then the exact light is the only bounded solution. As max_depth grows the means increase towards the least solution.", "quantifier": "every such scene of any size, every ray, channel, max_depth, and number of samples, and all sequences of random numbers at once", "why_tests_cant": "a limit over settings of integrals over infinitely many random sequences, compared with an integral equation", "anchors": ["src/ray_tracer.rs: trace_ray, get_local_illumination, get_global_illumination", "src/ray.rs: get_n_ambient_samples", "src/material/mat_trait.rs: sample_bsdf, eval_bsdf"]}
{"id": "C123", "title": "The mean picture with mirrors, glass and dielectrics", "statement": "In a scene of matt surfaces, mirrors, panes of glass and dielectrics under any number of suns, the average of what trace_ray brings back over the random numbers is exactly the light that satisfies, at matt surfaces, the rendering equation of C119, and at a mirror, pane or dielectric is the sum over the paths it offers of their weight times the light that arrives along them, a step of such a path counting as a bounce with probability min(1, count_specular_bounce). So the mean does not depend on the numbers of shadow and ambient samples.", "quantifier": "every such scene of any size and every ray all of whose paths end (for instance because count_specular_bounce is 1, or because a ray meets at most b specular surfaces in a row), every channel, setting with at least one shadow sample, and all sequences of random numbers at once", "why_tests_cant": "an equality of integrals over infinitely many random sequences and branching random paths", "anchors": ["src/ray_tracer.rs: trace_ray, get_local_illumination, get_global_illumination", "src/material/mirror.rs: get_possible_paths", "src/material/glass.rs: get_possible_paths", "src/material/dielectric.rs: get_possible_paths", "src/scene.rs: cast_ray"]}
{"id": "C124", "title": "Sunlight comes through glass", "statement": "A surface behind panes of transparent glass is lit by the sun: if light gets from the sun to a matt surface through panes of clear glass, rays that meet the surface bring back sunlight.", "quantifier": "every scene with panes of glass between suns and surfaces, every ray, setting and sequence of random numbers", "why_tests_cant": "all scenes, directions and random numbers: whether any path through the glass is ever found cannot be seen from a few renderings", "anchors": ["src/ray_tracer.rs: get_local_illumination, sample_light_array, intersect_light, trace_ray", "src/scene.rs: unobstructed_distance", "src/material/glass.rs: get_possible_paths"]}
{"id": "C125", "title": "The noise of different pixels is uncorrelated", "statement": "In a rendering of matt surfaces under suns, every pixel is distributed as though its ray was traced alone with a generator of its own, and if the generators of the chunks are independent, the noise of different pixels is uncorrelated, although the pixels of a chunk share a generator and whatever the schedule of the workers: the mean of the product of two pixels is the product of their means, and the noise of the average of n pixels is the sum of their noises divided by n^2.", "quantifier": "every such scene of any size, every camera, pair or set of pixels, channel, schedule, setting with at least one shadow sample, and all sequences of random numbers at once", "why_tests_cant": "a statement about the joint distribution of pixels over infinitely many random sequences and all schedules", "anchors": ["src/ray_tracer.rs: render, trace_ray, get_local_illumination, get_global_illumination", "src/camera/pinhole.rs: gen_ray", "src/rand.rs: get_rng"]}
{"id": "C126", "title": "More samples, less noise: the law of the noise and convergence", "statement": "In a scene of matt surfaces under suns, the mean squared error of the light trace_ray brings back along a primary ray (and of every pixel of a picture) is A / n_shadow_samples + B / n_ambient_samples with finite A and B that do not depend on the numbers of samples. So with enough samples it is as close as desired, and as surely as desired, to the light of the rendering equation; and, where surfaces reflect at most the share rho < 1, to the exact light if also max_depth is large enough and limit_weight is 0.", "quantifier": "every such scene of any size, every ray, camera, pixel, channel, schedule, number of samples, and all sequences of random numbers at once", "why_tests_cant": "an exact equality of variances over infinitely many random sequences, and a limit", "anchors": ["src/ray_tracer.rs: trace_ray, get_local_illumination, get_global_illumination, sample_light_array, render", "src/ray.rs: get_n_ambient_samples", "src/material/mat_trait.rs: sample_bsdf, eval_bsdf"]}
{"id": "C127", "title": "Daylight coefficients with reflections are on average the sky seen by reflection", "statement": "In a scene of matt surfaces the mean, over the random numbers, of the daylight coefficient of a sky patch at a sensor is the irradiance of the sensor if that patch has radiance 1 and the rest of the sky is dark, with the light that arrives directly and by reflections, for every number of samples; so the coefficients of a sensor never add up to more than pi on average if no surface reflects more than it receives.", "quantifier": "every such scene of any size, every sensor, sky patch, channel, max_depth, number of samples, and all sequences of random numbers at once", "why_tests_cant": "an integral over the hemisphere of integrals over hemispheres, for every scene; no finite number of runs gives the mean", "anchors": ["src/daylight_coefficients.rs: calc_dc, trace_ray", "src/ray.rs: get_n_ambient_samples", "src/material/mat_trait.rs: sample_bsdf"]}
{"id": "C128", "title": "Daylight coefficients depend on the surfaces, not on the lights", "statement": "Two scenes with the same surfaces, materials and build calls have the same daylight coefficients for every list of sensors, whatever their skies, suns and the colours and brightness of their lamps: coefficients computed once can be used for every sky.", "quantifier": "every pair of building histories that differ only in lights (and in how materials are numbered), every sensor, setting and sequence of random numbers", "why_tests_cant": "all pairs of scenes of any size and all random sequences; equality, not closeness", "anchors": ["src/daylight_coefficients.rs: calc_dc, trace_ray", "src/scene.rs: push_object, push_material, add_perez_sky, build_accelerator"]}
{"id": "C129", "title": "Daylight coefficients do not depend on where the scene stands", "statement": "Displacing every object of a scene and every sensor by the same vector leaves the daylight coefficients exactly unchanged, lamps, mirrors and glass included (in exact arithmetic and for the same random numbers).", "quantifier": "every building history, displacement, list of sensors, setting and sequence of random numbers", "why_tests_cant": "all scenes, displacements and random sequences; the accelerator is rebuilt for the displaced scene and must give the same answers", "anchors": ["src/daylight_coefficients.rs: calc_dc, trace_ray", "src/scene.rs: push_object, build_accelerator", "src/bvh.rs: BoundingVolumeTree::new, intersect"]}
{"id": "C130", "title": "Pictures show the light of the scene's geometry", "statement": "In a scene of matt surfaces under any number of suns, with limit_weight 0, the mean of every pixel is the light that the triangles, the colours of their sides and the suns determine: at the first surface along the ray, colour / pi times the sum of the integrals of radiance times cosine over the visible parts of the discs of the suns and the integral of arriving light times cosine over the hemisphere, and so on for max_depth + 1 reflections. As max_depth grows it tends to the light in balance with the geometry; if no surface reflects more than the share rho < 1 there is one such light, and at most a constant times rho^(max_depth + 1) of it is missing. (The disc of a sun is not weighted evenly, but for suns below a hundredth of a radian the weight differs from one by at most 1 / 50000 and is one on average.)", "quantifier": "every such scene of any size, every ray, camera, pixel, schedule, channel, max_depth, number of samples, and all sequences of random numbers at once", "why_tests_cant": "integrals over directions, nested as deep as reflections go, against means over infinitely many random sequences", "anchors": ["src/ray_tracer.rs: trace_ray, get_local_illumination, get_global_illumination, sample_light_array, render", "src/scene.rs: cast_ray, unobstructed_distance", "src/samplers.rs: uniform_sample_disc", "src/primitive.rs: Primitive::sample_direction, solid_angle_pdf", "src/material/mat_trait.rs: sample_bsdf, eval_bsdf"]}
{"id": "C131", "title": "Daylight coefficients are those of the scene's geometry", "statement": "In a scene of matt surfaces, with one ambient sample per sensor and reflection, the mean of the daylight coefficient of a sky patch is what the sensor receives, by the geometry of the triangles and the colours of their sides alone, from a sky that is dark but for that patch: the integral of the light over the sensor's hemisphere, weighted with the cosine, where a ray that meets nothing shows the sky and a ray that meets a surface shows colour / pi times the integral over the hemisphere of that surface, for at most max_depth + 1 reflections. For a sky of any radiances, the coefficients times the radiances add up to the light that the sensor receives from it.", "quantifier": "every such scene of any size, every list of sensors, division of the sky, sky, channel, max_depth from 1 to 14, limit_weight from 0 to 1, and all sequences of random numbers at once", "why_tests_cant": "nested integrals over directions against means over infinitely many random sequences", "anchors": ["src/daylight_coefficients.rs: calc_dc, trace_ray", "src/scene.rs: cast_ray", "src/ray.rs: get_n_ambient_samples", "src/material/mat_trait.rs: sample_bsdf"]}
{"id": "C132", "title": "Ray casting in double precision", "statement": "With every number a rounded binary64 number: building the accelerator never panics, never loops and permutes the rows, whatever the triangles; casting a ray through the tree gives, to the last bit, what testing every triangle with the double-precision test would give, and never misses a triangle that the exact ray goes through and whose own test reports a hit. In a scene of up to a kilometre the triangle reported is met by the exact ray up to an explicit rounding margin, no triangle that the ray goes well through is nearer by more than an explicit blur, nothing is reported only if the ray goes well through no triangle; a triangle well between a point and its target obstructs, and an answer of obstructed is caused by a triangle that the ray meets, up to the margin, before the target.", "quantifier": "every list of triangles and every ray with binary64 coordinates, every sort, selection and conservative box test of the libraries", "why_tests_cant": "the rounding errors depend on all the bits of every coordinate and on the tree that was built; no sample of rays covers them", "anchors": ["src/bvh.rs: BoundingVolumeTree::new, recursive_build, get_bucket_index, intersect, unobstructed_distance", "src/triangle.rs: baricentric_coorinates, simple_triangle_intersect"]}
{"id": "C133", "title": "Brighter paint never makes a darker picture", "statement": "In a scene of matt surfaces lit by suns, painting surfaces brighter (the same calls, with matt materials whose colours are nowhere darker) never makes the mean of what trace_ray returns smaller, in any channel, along any ray: for every max_depth, number of samples and limit_weight; nor the mean of any pixel, nor, with one ambient sample, of any daylight coefficient. If every colour is at least f >= 1 times brighter the mean is at least f times larger; if every colour is at most f times brighter and limit_weight is 0 it is at most f^(max_depth + 1) times larger.", "quantifier": "every building history of such a scene and every repainting of it, every ray, camera, pixel, schedule, sensor, channel and setting, and all sequences of random numbers at once", "why_tests_cant": "a comparison of two means over infinitely many random sequences, for two scenes whose rays part at every Russian roulette", "anchors": ["src/ray_tracer.rs: trace_ray, get_local_illumination, get_global_illumination, render", "src/daylight_coefficients.rs: calc_dc", "src/ray.rs: get_n_ambient_samples", "src/scene.rs: push_material, push_object"]}
{"id": "C134", "title": "An interrupted save is not taken for a complete file", "statement": "If writing a matrix, a colour matrix or an HDR picture stops after any number of bytes (full disk, killed process), reading what is left returns an error: it never panics, and never returns data as if the file were complete. (The code does return data: rows that are missing are zero, the last number and the number of columns may be cut to shorter numbers, pixels may be missing; what exactly is returned is proved.)", "quantifier": "every matrix, colour matrix and picture, and every number of bytes at which writing stops", "why_tests_cant": "every crash point of every file; tests cut a few", "anchors": ["src/colour_matrix.rs: save_matrix, save_colour_matrix, read_matrix, read_colour_matrix", "src/image.rs: save_hdre, from_file"]}
{"id": "C135", "title": "False colours can be read back", "statement": "In the pictures that sfalsecolor writes, a pixel of larger luminance never looks darker (but for the rounding of the three bytes to 8 bits), and two pixels of the same colour, with luminances on the scale, have luminances (with --log: logarithms) that differ by at most a fortieth of the scale. Close luminances have close colours, and the ends of each scale have the published colours. (True for inferno, magma, plasma, viridis; the order of brightness is violated by the scale of Radiance.)", "quantifier": "every readable picture, every pair of pixels, every minimum and maximum, linear or logarithmic, every scale", "why_tests_cant": "tests compare a few values; an error in one of 256 entries of a table, or between two of them, goes unnoticed", "anchors": ["src/colourmap/mod.rs: map_linear_colour", "src/colourmap/inferno.rs", "src/colourmap/magma.rs", "src/colourmap/plasma.rs", "src/colourmap/viridis.rs", "src/colourmap/radiance.rs", "src/image.rs: save_falsecolour, save_log_falsecolour", "bin/sfalsecolor.rs"]}
{"id": "C136", "title": "False colours survive double precision", "statement": "save_falsecolour computes in double precision: it writes a picture for every image and all limits, and each pixel gets, but for a millionth in each channel before rounding to bytes, the colour of its exact luminance on the scale between the exact limits. (Violated: with a positive lower limit a luminance just below the upper end makes it panic. Proved to be written whenever the lower limit is absent or not positive, and otherwise when no luminance is within a millionth of the scale of its upper end.)", "quantifier": "every image of non-negative doubles, every scale, every pair of limits whose lower end is not more than 1000 times the length of the scale", "why_tests_cant": "rounding errors depend on the last bits of every value; the luminances that fall between the last computed stop and the limit are a few doubles out of 2^64", "anchors": ["src/image.rs: save_falsecolour", "src/colourmap/mod.rs: map_linear_colour", "src/colour.rs: radiance, luminance"]}
{"id": "C137", "title": "sfalsecolor and scompare -m in double precision", "statement": "From the bytes of the files to the bytes of the pictures, with every computation rounded to double precision: HDR files are read exactly; sfalsecolor writes a picture for every complete file and gives each pixel, to a millionth, the colour of its exact luminance on the scale between the exact limits; scompare -m, for two complete files of the same size, writes a picture and gives each pixel, to two millionths, the colour of the exact difference of the two luminances. An image compared with itself is everywhere the first colour of the map. (Violated: with no maximum given, pictures that do not differ anywhere in luminance may be shown with the brightest colour of the map; the colours of a comparison are proved for scales of at least a 500th of the largest luminance.)", "quantifier": "every pair of files (every sequence of bytes), every minimum and maximum, every scale", "why_tests_cant": "rounding errors of differences of nearly equal radiances depend on the last bits of every pixel; a test compares a few files", "anchors": ["bin/sfalsecolor.rs", "bin/scompare.rs", "src/image.rs: from_file, diff, save_falsecolour", "src/colourmap/mod.rs: map_linear_colour", "src/colour.rs: radiance, luminance"]}
{"id": "C138", "title": "Pictures with mirrors, panes of glass and dielectrics: energy, mean and noise", "statement": "In a scene whose lights are suns, with matt surfaces and physical mirrors, panes of glass and dielectrics: (1) if the matt surfaces reflect at most the share rho of the light of a channel and show at most D of sunlight, the dielectrics absorb light rather than add it and none is denser than top >= 1, then the mean of what trace_ray brings back along a ray in a medium of index eta is at most (top/eta)^2 D (1 + rho + rho^2 + ...), one term per bounce that max_depth allows, however often the light passes through glass or off mirrors without being counted; such a finite D exists in every scene. (2) The same bound holds for the mean of every pixel that RayTracer::render makes, and that mean is the light of the equation with all splits followed, whatever the schedule of the worker threads. (3) The colour of a pixel has the distribution of the light of its own ray traced with a fresh generator; the noise of different pixels is uncorrelated (also within a chunk, where they share a generator), so the noise of the average of n pixels is the sum of their noises divided by n^2.", "quantifier": "every world that renders such a scene, every ray and medium, all settings, every camera and size of picture, every schedule, every family of endless uniform generators for the chunks, every channel, every set of pixels", "why_tests_cant": "The bound is an expectation of a branching random recursion whose depth max_depth alone does not limit; a test sees samples of a few pixels and cannot tell a sum of correlated noises from uncorrelated ones.", "anchors": ["src/ray_tracer.rs: RayTracer::trace_ray", "src/ray_tracer.rs: RayTracer::render", "src/material/mod.rs: Material::get_possible_paths", "src/material/glass.rs", "src/material/dielectric.rs", "src/material/mirror.rs"]}
{"id": "C139", "title": "Deeper tracing approaches the exact light, with mirrors, panes of glass and dielectrics", "statement": "In a scene whose lights are suns, with matt surfaces and physical mirrors, panes of glass and dielectrics: with limit_weight 0 the means of what trace_ray brings back with max_depth 0, 1, 2, ... tend to the light of the scene: the least solution of the rendering equation in which every split of the light at a pane, dielectric or mirror is followed and the number of reflections is not limited. If the matt surfaces reflect at most a share rho < 1, the dielectrics add no light, none is denser than top >= 1 and at most b mirrors or panes follow each other, then this solution is the only bounded one, no mean exceeds it whatever limit_weight, and with limit_weight 0 and room for k matt surfaces, each after b mirrors or panes, in max_depth the mean misses at most (top/eta)^2 rho^k B of it, B being the bound of the solution. The same two bounds hold for the mean of every pixel of every picture that RayTracer::render makes, whatever the schedule.", "quantifier": "every world that renders such a scene, every ray and medium, every number of shadow and ambient samples, every max_depth, every channel", "why_tests_cant": "A limit of expectations of branching random recursions; a test sees a few samples at a few depths and has no exact value to compare them with.", "anchors": ["src/ray_tracer.rs: RayTracer::trace_ray", "src/material/mod.rs: Material::get_possible_paths", "src/material/glass.rs", "src/material/dielectric.rs", "src/material/mirror.rs"]}
{"id": "C140", "title": "False colours written in double precision can be read back", "statement": "From the bytes of the files to the bytes of the pictures, with every computation rounded to double precision: in the pictures of sfalsecolor with inferno, magma, plasma or viridis a pixel of larger luminance never looks darker (but for 1.51 of the 255 levels, the rounding of three bytes), and two pixels of the same colour, with luminances on the scale, have luminances that differ by at most a fortieth of the scale. The same holds for the differences shown by scompare -m. Pixels beyond the ends of any of the five scales have the published first and last colours.", "quantifier": "every readable picture or pair of pictures, every pair of pixels, every minimum and maximum whose lower end is at most 1000 times (comparisons: 500 times, and no luminance more than that) the length of the scale", "why_tests_cant": "a rounding error of one luminance or colour stop depends on its last bits; tests compare a few values", "anchors": ["bin/sfalsecolor.rs", "bin/scompare.rs", "src/image.rs: save_falsecolour, diff, from_file", "src/colourmap/mod.rs: map_linear_colour"]}
{"id": "C141", "title": "Clearer glass and brighter paint never make a darker picture", "statement": "Building the same scene again with brighter paint on the matt surfaces, with clearer panes of glass (channel by channel; panes that are not black to begin with), with dielectrics of a lighter tint and with mirrors of any colour makes nothing darker: the mean of what comes back along any ray, and of every pixel of a picture, is at least what it was, in every channel. In particular a clearer pane reflects no less and transmits no less, from either side and at every angle.", "quantifier": "every sequence of calls that builds a scene of flat surfaces lit by suns, every better choice of colours, every setting, ray, picture, schedule and generator", "why_tests_cant": "a darker pixel may show after any number of reflections and in a mean over all random numbers; tests render single pictures with single seeds", "anchors": ["src/material/glass.rs: refl_trans, get_possible_paths", "src/material/dielectric.rs", "src/material/plastic.rs, metal.rs, mirror.rs", "src/ray_tracer.rs: trace_ray", "src/scene.rs: push_material, push_object"]}
{"id": "C142", "title": "How much brighter paint makes a room with mirrors and windows", "statement": "In a scene with mirrors, panes of glass and dielectrics, painting the matt surfaces anew so that every colour is at least f >= 1 times brighter makes the mean of what comes back along any ray, and of every pixel, at least f times brighter, whatever limit_weight is. With limit_weight 0, if no colour got more than g times brighter, the mean is at most g^(max_depth + 1) times what it was, however many mirrors and panes the light passes. Paint does not change after how many passages tracing ends.", "quantifier": "every sequence of calls that builds a scene of flat surfaces lit by suns, every choice of new colours of the matt materials, every setting, ray, picture, schedule and generator", "why_tests_cant": "the mean over all random numbers and all chains of reflections and passages is not something a test can evaluate", "anchors": ["src/ray_tracer.rs: trace_ray", "src/material/plastic.rs, metal.rs, mirror.rs, glass.rs, dielectric.rs", "src/scene.rs: push_material, push_object"]}
{"id": "C143", "title": "Finer settings never make a darker picture", "statement": "Take two settings of the ray tracer, the second cutting off no more light than the first: a max_depth at least as large, a limit_weight no larger and not negative, a count_specular_bounce no larger, ambient samples not switched off; the numbers of samples may be any positive numbers. Then the mean of what comes back along any ray, and the mean of every pixel of a picture, is in every channel no smaller with the second. If with the second settings every path ends, so it does with the first.", "quantifier": "every sequence of calls that builds a scene of matt surfaces, mirrors, panes and dielectrics lit by suns, every two such settings, every ray, picture, schedule and generator", "why_tests_cant": "the settings change which random paths are followed and how many random numbers are drawn, so two single runs with the same seed cannot be compared; only the mean over all random numbers can", "anchors": ["src/ray_tracer.rs: trace_ray, get_local_illumination, get_global_illumination", "src/material/mod.rs", "bin/spict.rs: main"]}
{"id": "C144", "title": "Pictures with mirrors show the light of the scene's geometry", "statement": "In a scene of matt surfaces and mirrors under any number of suns, with limit_weight 0 and mirrors that count as bounces, the mean of every pixel is the light that the triangles, the materials of their sides and the suns determine: a mirror shows all the light from the mirrored direction, a matt surface colour / pi times the integrals over the visible parts of the suns and over the hemisphere, for at most max_depth + 1 surfaces. Whatever the chance that mirrors count, the mean tends, as max_depth grows, to the least light in balance with the geometry; if matt surfaces reflect at most the share rho < 1 and at most b mirrors follow each other, there is one bounded such light, and at most a constant times rho^k of it is missing, where k matt surfaces, each after b mirrors, have room in max_depth.", "quantifier": "every such scene of any size, every ray, camera, pixel, schedule, channel, max_depth, number of samples, and all sequences of random numbers at once", "why_tests_cant": "nested integrals over directions, with chains of mirrors between them, against means over infinitely many random sequences", "anchors": ["src/ray_tracer.rs: trace_ray, get_local_illumination, get_global_illumination", "src/material/mirror.rs: get_possible_paths", "src/material/specular.rs: mirror_direction, mirror_bsdf", "src/scene.rs: cast_ray, unobstructed_distance"]}
{"id": "C145", "title": "Pictures through panes of glass show the light of the scene's geometry", "statement": "As C144, with panes of glass as well (of index at least one, not opaque, no channel brighter than one): a pane shows the light from the mirrored direction and the light straight behind it, with the shares that the physics of a pane gives: Snell's law for the cosine inside, Fresnel's reflectances of the faces for both polarisations, absorption along the way through the glass, and the infinite sums over all reflections between the faces. The mean of every pixel is the light that so meets at most max_depth + 1 surfaces; as max_depth grows it tends to the least light in balance with the geometry, which is the only bounded one, with the error of C144, if matt surfaces reflect at most the share rho < 1.", "quantifier": "every such scene of any size, every ray, camera, pixel, schedule, channel, max_depth, number of samples, and all sequences of random numbers at once", "why_tests_cant": "nested integrals over directions with branching chains of reflections and passages between them, against means over infinitely many random sequences", "anchors": ["src/ray_tracer.rs: trace_ray, get_local_illumination, get_global_illumination", "src/material/glass.rs: refl_trans, get_possible_paths, any_transmission", "src/material/mirror.rs: get_possible_paths", "src/material/specular.rs: mirror_direction", "src/scene.rs: cast_ray, unobstructed_distance"]}
{"id": "C146", "title": "Pictures with dielectrics show the light of the scene's geometry", "statement": "As C145, with dielectrics (any positive index, any colour) as well: their surfaces show Fresnel's share (the average over both polarisations) of the light from the mirrored direction, and the rest, in the colour of the dielectric and times the squared ratio of the indices, of the light from the refracted direction in the other medium, which Snell's law gives; beyond the critical angle they show all the light from the mirrored direction. The mean of every pixel is the light that so meets at most max_depth + 1 surfaces; as max_depth grows it tends to the least light in balance with the geometry in every medium, which is the only one bounded in light per squared index, with an error of the kind of C144, if matt surfaces reflect at most the share rho < 1 and dielectrics add no light.", "quantifier": "every such scene of any size, every ray in every medium, camera, pixel, schedule, channel, max_depth, number of samples, and all sequences of random numbers at once", "why_tests_cant": "nested integrals over directions with branching chains of reflections and refractions between media, against means over infinitely many random sequences", "anchors": ["src/ray_tracer.rs: trace_ray, get_local_illumination, get_global_illumination", "src/material/dielectric.rs: refl_trans, get_possible_paths", "src/material/glass.rs: refl_trans, get_possible_paths", "src/material/specular.rs: cos_and_n, fresnel_reflectance, fresnel_transmission_dir, mirror_direction", "src/scene.rs: cast_ray, unobstructed_distance"]}
