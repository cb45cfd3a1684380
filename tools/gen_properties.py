#!/usr/bin/env python3
"""Regenerates /verif/properties.jsonl (one JSON object per line)."""
import json, os
P = []
def p(id, title, statement, quantifier, why, anchors):
    P.append(dict(id=id, title=title, statement=statement, quantifier=quantifier,
                  why_tests_cant=why, anchors=anchors))

# ---------------------------------------------------------------- BVH
p("C01", "Scene::cast_ray reports the nearest triangle",
  "If Scene::cast_ray (BoundingVolumeTree::intersect) reports a hit for a built scene, the reported triangle index is one of the scene's triangles, that triangle is really hit by the ray beyond the minimum distance, and no triangle of the scene that the ray hits beyond the minimum distance is nearer (a triangle is 'hit' up to the 2^-52 barycentric edge tolerance of the triangle test).",
  "every non-empty scene (any order and shape of triangles, fewer than 2^30 of them and fewer than 32768 with coincident box centres — beyond that see C08), every ray, every build outcome the unstable sorts/selects may produce",
  "tests can only sample scenes and rays; a wrongly flattened subtree or skipped child shows up only for particular tree shapes and ray directions",
  ["src/bvh.rs: BoundingVolumeTree::intersect, flatten_node, recursive_build", "src/scene.rs: cast_ray"])
p("C02", "Scene::cast_ray misses nothing",
  "Scene::cast_ray returns no intersection exactly when no triangle of the scene is hit by the ray beyond the minimum distance.",
  "every scene within the size limits of C01, every ray, every tree the builder may produce",
  "a missed primitive depends on a combination of tree shape, traversal order and box tests no finite suite enumerates",
  ["src/bvh.rs: BoundingVolumeTree::intersect, flatten_node", "src/scene.rs: cast_ray"])
p("C03", "unobstructed_distance is exactly 'no blocker'",
  "Scene::unobstructed_distance(ray, d2) answers false exactly when some triangle of the scene is hit at a squared distance t2 with t2 > 1e-6, t2 + 1e-6 < d2 and |d2 - t2| > 1e-4, and true otherwise, whatever the tree looks like.",
  "every scene within the size limits of C01, every ray and target squared distance, every tree the builder may produce",
  "same reason as C02; early termination makes the outcome depend on the traversal order",
  ["src/bvh.rs: BoundingVolumeTree::unobstructed_distance"])
p("C04", "Building the accelerator always succeeds",
  "BoundingVolumeTree::new terminates for every scene, never indexes out of bounds and never unwraps an empty bucket: every internal split leaves both halves non-empty and the first and last bucket are always populated.",
  "every list of triangles and every behaviour of the unstable sort / select and every centroid distribution",
  "the bucket arithmetic depends on real-valued centroids; degenerate distributions are unboundedly many",
  ["src/bvh.rs: recursive_build, get_bucket_index, new"])
p("C05", "Building only permutes the scene's triangles",
  "After Scene::build_accelerator the triangles, front materials, back materials and normals are one common permutation of what was pushed: no triangle is lost, duplicated or paired with another triangle's materials or normals.",
  "every sequence of pushed objects, every tree shape",
  "the permutation is a function of all centroids; pairing errors only show for scenes with distinguishable rows",
  ["src/bvh.rs: BoundingVolumeTree::new, recursive_build", "src/scene.rs: build_accelerator"])
p("C06", "Traversal scratch memory does not leak between rays",
  "The answer of cast_ray and unobstructed_distance does not depend on what a previous query left in the RayTracerHelper's node stack.",
  "every previous content of the scratch vector, every scene and ray",
  "stale content depends on the whole history of earlier rays",
  ["src/bvh.rs: intersect, unobstructed_distance", "src/ray_tracer.rs: RayTracerHelper"])
p("C07", "Answers do not depend on how the tree was built",
  "Two accelerators built over the same triangles (by build_accelerator or rebuild_accelerator, with any tie-breaking of the unstable sorts and any box-splitting decision) agree on whether any ray hits, on the distance of the hit and on every unobstructed_distance answer.",
  "every pair of build outcomes over the same scene (size limits of C01), every ray clear of the 2^-52 edge tolerance bands",
  "sort_unstable / select_nth_unstable leave the order of ties open, so one test run exercises one outcome only",
  ["src/bvh.rs: recursive_build, flatten_node", "src/scene.rs: rebuild_accelerator"])
p("C08", "Leaves survive the 16-bit primitive count",
  "However many triangles share one centroid (and therefore one leaf), they are all still found by cast_ray.",
  "every number of coincident-centroid triangles",
  "needs scenes of tens of thousands of coincident triangles",
  ["src/bvh.rs: flatten_node (n_prims as i16), intersect"])
p("C09", "Objects pushed after build_accelerator are seen",
  "Every query answered by a scene reflects all the objects pushed so far, whether pushed before or after build_accelerator.",
  "every interleaving of push_object, build_accelerator, rebuild_accelerator and cast_ray",
  "quantifies over histories of API calls",
  ["src/scene.rs: push_object, build_accelerator, rebuild_accelerator, cast_ray"])
# ---------------------------------------------------------------- Scene
p("C10", "Scene arrays stay aligned and indices stay valid",
  "After any sequence of push_material / push_object / build_accelerator / rebuild_accelerator / add_perez_sky calls, triangles, normals, front materials and back materials have the same length and every material index stored in the scene (triangles, lights, distant lights) designates an existing material.",
  "every finite history of Scene API calls",
  "invariant over unbounded histories",
  ["src/scene.rs: Scene::push_material, push_object, build_accelerator, add_perez_sky"])
p("C11", "Material handles are stable",
  "The index returned by push_material keeps designating exactly the pushed material after any further sequence of scene operations.",
  "every material and every later history",
  "quantifies over all later histories",
  ["src/scene.rs: push_material"])
p("C12", "Light registry is complete",
  "count_all_lights equals the number of pushed objects whose front or back material is a Light; the ones whose primitive is a distant source go to the distant-light list and the others to the near-light list.",
  "every history of scene operations",
  "quantifies over histories",
  ["src/scene.rs: push_object, count_all_lights"])
p("C13", "push_object fails exactly on invalid input",
  "push_object panics exactly when one of the material indices is out of range, or the primitive is neither a triangle nor a sphere and neither material is a light; otherwise it succeeds and stores exactly the primitive's triangles, all carrying the given indices.",
  "every scene state, primitive and pair of indices",
  "case analysis over all states",
  ["src/scene.rs: push_object"])
p("C14", "Accelerator life cycle",
  "build_accelerator panics exactly when an accelerator exists; cast_ray and unobstructed_distance panic exactly when none exists; rebuild_accelerator always leaves a scene with an accelerator.",
  "every history",
  "quantifies over histories",
  ["src/scene.rs: build_accelerator, rebuild_accelerator, cast_ray, unobstructed_distance"])
# ---------------------------------------------------------------- triangle
p("C15", "Triangle hits are geometric",
  "Whenever triangle_intersect reports a hit, the reported point is both on the ray at a positive parameter and equal to a(1-u-v)+bu+cv with barycentric coordinates within the tolerance (so it lies on the triangle up to the tolerance), and the reported normal is orthogonal to both edges and faces against the ray on the side reported.",
  "every triangle and every ray",
  "real-valued inputs",
  ["src/triangle.rs: baricentric_coorinates, triangle_intersect, new_info"])
p("C16", "Triangle hits are complete",
  "If a ray passes through a point of a triangle at parameter t greater than the tolerance and is not near-parallel to it (|determinant| at least the tolerance), triangle_intersect and simple_triangle_intersect report it, with exactly that point and parameter.",
  "every triangle, ray and point on the triangle",
  "real-valued inputs",
  ["src/triangle.rs: baricentric_coorinates, simple_triangle_intersect, triangle_intersect"])
p("C17", "No triangle is too small to be hit",
  "Every non-degenerate triangle can be hit by some unit-direction ray, however small it is.",
  "every non-degenerate triangle",
  "the threshold is absolute, so failures only appear below a size no test uses",
  ["src/triangle.rs: baricentric_coorinates (TINY)"])
p("C18", "triangle_area is the area",
  "triangle_area (Heron's formula) equals half the norm of the cross product of two edges, is non-negative, does not depend on the order of the vertices, is invariant under translation and scales quadratically.",
  "every triangle",
  "real-valued inputs",
  ["src/triangle.rs: triangle_area"])
p("C19", "World bounds of a triangle are tight",
  "triangle_world_bounds contains every point of the triangle and is contained in every axis-aligned box that contains the three vertices.",
  "every triangle and every point of it",
  "real-valued inputs",
  ["src/triangle.rs: triangle_world_bounds"])
p("C20", "mesh_sphere approximates the sphere",
  "mesh_sphere returns 20480 triangles, every vertex lies exactly on the sphere, every triangle is non-degenerate and wound outwards, the three reported normals are the outward unit normals at the vertices, and all material indices are the given ones.",
  "every centre and positive radius",
  "real-valued inputs; 61440 vertices per sphere",
  ["src/triangle.rs: mesh_sphere, refine_triangles (inside mesh_sphere)"])
p("C21", "Interpolated normals follow the hit point",
  "The shading normal returned for a hit at p = a(1-u-v)+bu+cv is the combination of the vertex normals with the same weights, flipped to the side that was hit.",
  "every hit and every triple of vertex normals",
  "real-valued inputs; the library's own tests use equal vertex normals",
  ["src/interaction.rs: interpolate_normal", "src/triangle.rs: baricentric_coorinates"])
p("C22", "Light sampling density is a property of directions and distances",
  "The solid-angle density reported for a triangle light does not change when the whole scene, ray included, is translated.",
  "every triangle, ray, and translation",
  "metamorphic relation over all inputs",
  ["src/triangle.rs: triangle_solid_angle_pdf", "src/primitive_samplers.rs: triangle_solid_angle_pdf"])
# ---------------------------------------------------------------- image
p("C23", "RGBE encoding error is bounded",
  "For every pixel whose largest channel is in the encodable range, decoding its four RGBE bytes yields, channel by channel, a value not above the original and below it by less than 1/128 of the largest channel; pixels whose largest channel is below 1e-19 decode to black.",
  "every non-negative pixel value in range",
  "2^192 pixel values",
  ["src/image.rs: colour_to_rgbe, rgbe_to_colour, rusty_frexp, ldexp"])
p("C24", "HDR files round-trip",
  "Reading back (ImageBuffer::from_file) what save_hdre wrote gives an image of the same width, height and pixel count, whose pixels are exactly the RGBE-decoded encodings of the originals, in the same order; no pixel byte is ever mistaken for header.",
  "every image of any size and content",
  "all byte contents, including pixel bytes that look like newlines or header text",
  ["src/image.rs: save_hdre, from_file"])
p("C25", "Re-saving a decoded image changes nothing",
  "Encoding a pixel that was decoded from an encoding gives back the same four bytes.",
  "every pixel in the encodable range",
  "2^192 pixel values; the failing ones are in a sliver next to the underflow threshold",
  ["src/image.rs: colour_to_rgbe, rgbe_to_colour"])
p("C26", "Reading an HDR file never yields an inconsistent image",
  "If from_file returns an image, its pixel count is width times height.",
  "every byte string a file may contain",
  "all byte strings (truncations, corruptions)",
  ["src/image.rs: from_file"])
p("C27", "ImageBuffer behaves like a map from in-range coordinates to pixels",
  "For coordinates inside the image, reading after writing at (x,y) gives the written value at (x,y) and the previous value elsewhere; two distinct coordinate pairs never share a pixel; pixels() lists rows top to bottom, left to right; an index beyond the buffer panics.",
  "every size, every history of writes, every coordinate pair",
  "quantifies over histories of writes",
  ["src/image.rs: Index/IndexMut for ImageBuffer, new, from_pixels, pixels"])
p("C28", "Image comparison",
  "diff succeeds for two consistent images exactly when the sizes agree, is symmetric, is zero exactly where the radiances agree, and is gray everywhere.",
  "every pair of images",
  "all sizes and contents",
  ["src/image.rs: diff", "bin/scompare.rs"])
p("C29", "Colour maps are total, clamped and ordered",
  "For min<max and a map of at least two colours, map_linear_colour returns a colour for every number: the first colour at or below min, the last at or above max, and in between the linear interpolation of the two colours whose interval contains the value; where the map's channel increases, a larger value never gets less of it.",
  "every map length, every interval and every value",
  "real-valued inputs, arbitrary maps",
  ["src/colourmap/mod.rs: map_linear_colour, map_linear_spectrum"])
p("C30", "False-colour output is well formed",
  "save_falsecolour and save_log_falsecolour hand the JPEG encoder exactly three bytes per pixel, in pixel order, each triple being the scaled colour of that pixel's luminance; with automatic limits no pixel exceeds the upper limit, and the brightest pixel gets the last colour.",
  "every image, map and choice of limits",
  "all images",
  ["src/image.rs: save_falsecolour, save_log_falsecolour"])
# ---------------------------------------------------------------- matrices
p("C31", "Matrix files round-trip",
  "read_matrix applied to the text written by save_matrix returns a matrix of the same shape and the same numbers, provided numbers print and parse back faithfully.",
  "every shape with at least one row and column and every content",
  "all shapes and contents",
  ["src/colour_matrix.rs: save_matrix, read_matrix"])
p("C32", "Colour-matrix files round-trip",
  "read_colour_matrix applied to the text written by save_colour_matrix returns a matrix of the same shape whose channels are the values that were printed (i.e. the originals rounded to five decimals), row by row, column by column.",
  "every shape and content",
  "all shapes and contents",
  ["src/colour_matrix.rs: save_colour_matrix, read_colour_matrix", "src/colour.rs: Display for Spectrum"])
p("C33", "Scalar and colour matrix files are never confused",
  "read_matrix returns an error on every file written by save_colour_matrix and read_colour_matrix returns an error on every file written by save_matrix.",
  "every matrix of every shape",
  "all shapes and contents",
  ["src/colour_matrix.rs: read_matrix, read_colour_matrix"])
p("C34", "Malformed matrix files are reported, not misread",
  "A matrix file whose number of data rows differs from NROWS is rejected with an error.",
  "every file",
  "all files",
  ["src/colour_matrix.rs: read_matrix, read_colour_matrix"])
p("C35", "Matrix radiance and luminance conversions are pointwise linear",
  "colour_matrix_to_radiance / to_luminance keep the shape, luminance is 179 times radiance at each entry, a gray entry's radiance is its value, and average_matrix returns one row holding the mean of each column; radiance lies between the smallest and the largest channel.",
  "every matrix",
  "all shapes and contents",
  ["src/colour_matrix.rs: colour_matrix_to_radiance, colour_matrix_to_luminance, average_matrix", "src/colour.rs: radiance, luminance"])
# ---------------------------------------------------------------- camera
p("C36", "A camera ray comes back to the pixel it was generated for",
  "pixel_from_ray(gen_ray(sample at pixel p)) = p with weight 1.",
  "every film resolution, field of view, orthonormal view and every pixel",
  "all resolutions; the library's own test uses one film",
  ["src/camera/pinhole.rs: gen_ray, pixel_from_ray"])
p("C37", "Camera rays are well formed and distinct",
  "Every ray generated by the pinhole camera starts at the view point, has unit direction, points into the viewing half-space, has weight 1, and two different pixels get different directions; the central symmetry of the film is respected.",
  "every film, view and pixel",
  "all resolutions and views",
  ["src/camera/pinhole.rs: gen_ray, new"])
p("C38", "Random camera samples address real pixels",
  "gen_random_sample yields a pixel inside the film for every random outcome on a non-empty film, and pixel_index maps the film's pixels one-to-one onto 0..width*height.",
  "every film with positive width and height and every random draw",
  "all random outcomes",
  ["src/camera/camera_trait.rs: gen_random_sample", "src/camera/pinhole.rs: pixel_index"])
# ---------------------------------------------------------------- render
p("C39", "render paints every pixel exactly once whatever the schedule",
  "In every interleaving of the parallel chunk workers, when render returns, the pixel (x,y) of the image holds the radiance computed for the ray generated at (x,y), every pixel is written exactly once and no other location is written.",
  "every image size, every chunk length, every interleaving of workers",
  "interleavings and sizes are unbounded; tests see one schedule",
  ["src/ray_tracer.rs: RayTracer::render"])
p("C40", "Pixel coordinates are exact",
  "The row computed in floating point, floor(index as Float / width as Float), equals the integer quotient, and x = index - y*width is below width, for every index below 2^53 (2^24 for the f32 build).",
  "every width and every pixel index below the mantissa limit, with round-to-nearest division",
  "2^53 indices times all widths",
  ["src/ray_tracer.rs: render"])
p("C41", "Progress accounting",
  "In every schedule of render (and calc_dc) the shared counter, after the workers finish, equals the number of processed pixels (rays), each reported percentage is between 0 and 100, reports are strictly increasing, what was last reported is at most one per cent behind whenever no worker is counting, and 99 or 100 in the end.",
  "every interleaving of the workers and every number of pixels",
  "interleavings",
  ["src/ray_tracer.rs: render", "src/daylight_coefficients.rs: calc_dc"])
p("C42", "Progress locks never deadlock",
  "In every reachable state of the parallel loop in which some worker has not finished, some worker can take a step; every schedule finishes after a bounded number of steps.",
  "every number of workers and pixels and every interleaving",
  "interleavings",
  ["src/ray_tracer.rs: render", "src/daylight_coefficients.rs: calc_dc"])
# ---------------------------------------------------------------- materials
p("C43", "Mirror reflection",
  "mirror_direction preserves length, flips the normal component, keeps the tangential one, is an involution, and keeps the reflected ray on the side of the incident one.",
  "every direction and unit normal",
  "real-valued inputs",
  ["src/material/specular.rs: mirror_direction"])
p("C44", "Snell's law and total internal reflection",
  "cos_and_n reports no transmission exactly when n1/n2*sin1 > 1; otherwise the returned cosine satisfies Snell's law n1 sin1 = n2 sin2, where n1 and n2 are the indices of the side the ray comes from and goes to.",
  "every direction, normal and pair of refraction indices",
  "real-valued inputs",
  ["src/material/specular.rs: cos_and_n"])
p("C45", "Refracted direction",
  "fresnel_transmission_dir is a unit vector, coplanar with the incident direction and the normal, on the far side of the surface, obeying Snell's law.",
  "every unit direction, unit normal and indices without total reflection",
  "real-valued inputs",
  ["src/material/specular.rs: fresnel_transmission_dir"])
p("C46", "Fresnel reflectance is physical",
  "The TE and TM amplitude coefficients lie in [-1,1], the reflectance in [0,1], it is the same when the path is reversed, at normal incidence equals ((n1-n2)/(n1+n2))^2 and equals 1 at grazing incidence.",
  "every pair of positive indices and every pair of cosines",
  "real-valued inputs",
  ["src/material/specular.rs: fresnel_te, fresnel_tm, fresnel_reflectance"])
p("C47", "Dielectric conserves energy",
  "The reflected and transmitted fractions chosen by a Dielectric surface are non-negative and sum to at most one (exactly one for a white material, up to the radiance-scaling factor (n2/n1)^2), and under total internal reflection everything is reflected.",
  "every incidence, index and colour in [0,1]",
  "real-valued inputs",
  ["src/material/dielectric.rs: refl_trans, get_possible_paths"])
p("C48", "Glass conserves energy",
  "For every pane of Glass with channel transmissivity in [0,1], reflectance and transmittance are within [0,1] per channel and their sum never exceeds one.",
  "every incidence angle, index of refraction >= 1 and transmissivity",
  "real-valued inputs",
  ["src/material/glass.rs: refl_trans"])
p("C49", "Mirror colour tints the reflection",
  "The specular path returned by a Mirror carries the mirror's colour.",
  "every colour, direction and normal",
  "all colours",
  ["src/material/mirror.rs: get_possible_paths, eval_bsdf"])
p("C50", "Glass evaluates consistently with its paths",
  "Glass::eval_bsdf reports a non-zero transmission in the straight-through direction exactly when get_possible_paths offers a transmitted path.",
  "every glass, direction and normal",
  "all inputs",
  ["src/material/glass.rs: eval_bsdf, get_possible_paths"])
p("C51", "Ward-type BSDFs are non-negative, reciprocal and diffuse when specularity is zero",
  "evaluate_ward_aniso is non-negative on the reflection side; swapping incident and outgoing direction leaves the specular part unchanged; with zero specularity the value is the diffuse term 1/pi in every direction.",
  "every roughness, specularity and pair of directions",
  "real-valued inputs",
  ["src/material/ward.rs: evaluate_ward_aniso"])
p("C52", "Leaving a dielectric undoes entering it",
  "A ray refracted into a dielectric and refracted out through a parallel face continues in its original direction, and the product of the (n2/n1)^2 factors is one.",
  "every direction, normal and index without total reflection",
  "real-valued inputs",
  ["src/material/specular.rs: fresnel_transmission_dir", "src/material/dielectric.rs"])
# ---------------------------------------------------------------- samplers
p("C53", "Triangle samples lie in the triangle",
  "uniform_sample_triangle / sample_triangle_surface always returns a point of the triangle, for every pair of random draws in [0,1].",
  "every triangle and every pair of draws",
  "continuum of draws",
  ["src/samplers.rs: uniform_sample_triangle", "src/primitive_samplers.rs: sample_triangle_surface"])
p("C54", "Local/world change of basis is an isometry",
  "local_to_world maps (x,y,z) in an orthonormal frame to a vector with the same length, whose components in the frame are x,y,z.",
  "every orthonormal frame, every local vector",
  "real-valued inputs",
  ["src/samplers.rs: local_to_world"])
p("C55", "Hemisphere samples are unit vectors on the right side",
  "cosine and uniform hemisphere samplers return unit vectors with non-negative component along the normal; the uniform sphere sampler returns unit vectors.",
  "every frame and pair of draws in [0,1]",
  "continuum of draws",
  ["src/samplers.rs: sample_cosine_weighted_horizontal_hemisphere, cosine_weighted_sample_hemisphere, uniform_sample_hemisphere, uniform_sample_sphere"])
p("C56", "Disc and sphere-surface samples are on their primitive",
  "uniform_sample_disc returns points in the plane of the disc within the radius; sample_sphere_surface returns points at distance radius*(1-1e-5) from the centre.",
  "every disc, sphere and pair of draws",
  "continuum of draws",
  ["src/samplers.rs: uniform_sample_disc, uniform_sample_horizontal_disc", "src/primitive_samplers.rs: sample_sphere_surface"])
# ---------------------------------------------------------------- tracing
p("C57", "Path depth is bounded",
  "trace_ray never recurses deeper than max_depth+1 and never indexes the per-depth scratch rays out of range when max_depth <= 14; with max_depth >= 15 a scene exists that panics.",
  "every scene, random stream and max_depth",
  "unbounded recursion trees",
  ["src/ray_tracer.rs: trace_ray, get_global_illumination, RayTracerHelper::default"])
p("C58", "calc_dc rows are independent and well shaped",
  "calc_dc returns a matrix with one row per sensor ray and one column per sky bin, row i being the sum of the contributions of the primary samples of ray i only.",
  "every list of rays, sky discretisation, sample counts and schedule",
  "all sizes and schedules",
  ["src/daylight_coefficients.rs: calc_dc"])
p("C59", "An unobstructed sensor collects pi",
  "In an empty scene every row of calc_dc sums to pi in each channel, every sample being counted in exactly one bin.",
  "every list of rays, number of ambient samples and random stream",
  "continuum of draws",
  ["src/daylight_coefficients.rs: calc_dc, trace_ray"])
p("C60", "Ambient sampling terminates",
  "get_global_illumination takes finitely many samples.",
  "every scene and every random stream",
  "liveness over infinite random streams",
  ["src/ray_tracer.rs: get_global_illumination"])
p("C61", "Ambient samples of the daylight-coefficient tracer are independent",
  "At a diffuse surface every ambient sample starts from the same incoming ray: the contribution of a sample does not depend on the samples taken before it.",
  "every scene and random stream",
  "history dependence",
  ["src/daylight_coefficients.rs: trace_ray"])
p("C62", "Lights are seen directly",
  "A camera ray whose nearest hit is an emitting material returns exactly that material's colour, whatever the depth; a ray that misses returns the sky colour or black; the result does not depend on random draws.",
  "every scene, ray, and random stream",
  "all scenes",
  ["src/ray_tracer.rs: trace_ray"])
p("C63", "Shadow rays",
  "A light sample contributes only if the point sampled is unobstructed, and with n samples the direct contribution is the average of n admissible samples.",
  "every scene, light and random stream",
  "continuum of draws",
  ["src/ray_tracer.rs: sample_light_array, get_local_illumination"])
p("C64", "Number of ambient samples and Russian roulette",
  "get_n_ambient_samples returns 0 when ambient bounces are disabled, the maximum at depth 0, and 0 or 1 elsewhere; it is 1 surely when the ray value is at least the limit; the expected compensated value equals the ray value.",
  "every ray state, parameters and random draw",
  "continuum of draws",
  ["src/ray.rs: get_n_ambient_samples"])
# ---------------------------------------------------------------- parsers
p("C65", "Radiance scanner always progresses and never overruns",
  "Scene::from_radiance (the scanner) terminates on every byte string, never reads past the end, and the line number in its error messages is the number of newlines consumed.",
  "every byte string",
  "all inputs",
  ["src/from_radiance.rs: RadianceReader::consume_whitespace, consume_non_white, consume_token, is_done"])
p("C66", "Modifier names resolve to the material they name",
  "Throughout reading a Radiance file the list of modifier names is aligned with the scene's materials, and each object gets the first material defined under its modifier's name; an unknown modifier is an error.",
  "every input text",
  "all inputs",
  ["src/from_radiance.rs: consume_object, get_modifier / push_modifier"])
p("C67", "Layout does not matter",
  "Two Radiance texts with the same sequence of tokens (differing only in the amount and kind of white space between tokens) produce the same scene.",
  "every token sequence and every white space",
  "all layouts",
  ["src/from_radiance.rs: consume_token"])
p("C68", "OBJ faces become the right triangles",
  "Every OBJ face with three vertices yields one triangle and every face with four yields two that share the diagonal, in winding order; faces with more vertices are skipped; all vertices come from the face.",
  "every face list",
  "all meshes",
  ["src/from_obj.rs"])
p("C69", "SIMPLE-model materials",
  "Every surface and fenestration of a SIMPLE model is pushed with in-range material indices taken from its own construction: front material from the first layer and back material from the last.",
  "every model",
  "all models",
  ["src/from_simple_model.rs"])
p("C70", "Spectrum arithmetic is channelwise",
  "Spectrum operations act channel by channel: they form a commutative semiring-like algebra, compound assignments agree with their operators, division undoes multiplication by non-zero scalars, normalize makes radiance 1, and is_black is true exactly when every channel is below 1e-24.",
  "every spectrum",
  "real-valued inputs",
  ["src/colour.rs: impl ops for Spectrum, is_black, normalize, radiance, luminance"])

here = os.path.dirname(os.path.abspath(__file__))
extra = os.path.join(here, "more_properties.py")
if os.path.exists(extra):
    exec(open(extra).read())
with open(os.path.join(here, "..", "properties.jsonl"), "w") as f:
    for q in P:
        f.write(json.dumps(q, ensure_ascii=False) + "\n")
print(len(P))
