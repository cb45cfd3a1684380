p("C71", "The sun's zenith angle is clamped to 3..90 degrees",
  "The zenith angle from which Scene::add_perez_sky computes the sun's brightness is the sun's own zenith angle, limited to at least 3 and at most 90 degrees; in particular it depends monotonically on the sun's height.",
  "every sun position",
  "the branch depends on a real-valued direction; sampled suns rarely land in the 3 degree cone",
  ["src/scene.rs: add_perez_sky"])
p("C72", "Camera rays fill the requested field of view",
  "For every view direction, every up vector not parallel to it and every field of view, the tangent of the horizontal angle of the ray of pixel column x is (2x+1-w)/w times the tangent of half the field of view, and rows are spaced like columns.",
  "every view, film and pixel",
  "an identity over real-valued views and all film sizes",
  ["src/camera/pinhole.rs: Pinhole::new, gen_ray", "bin/spict.rs"])
p("C73", "A dielectric's tint is applied once per crossing",
  "In the daylight-coefficient matrix, light that reaches a sensor through one interface of a tinted dielectric is attenuated by the tint once: doubling a tint channel doubles the transmitted coefficient of that channel.",
  "every dielectric, incidence and tint",
  "the factor is scattered over two functions, each of which looks right on its own",
  ["src/daylight_coefficients.rs: trace_ray", "src/material/dielectric.rs: get_possible_paths"])
p("C74", "Sampled reflections leave the surface on the side they arrived from",
  "Whenever sample_bsdf of a plastic or metal returns a direction, the direction is on the same side of the surface as the eye, and sample_bsdf always returns.",
  "every incoming direction, roughness, specularity and all random draws",
  "quantifies over every pair of real draws and every incidence angle",
  ["src/material/ward.rs: sample_ward_anisotropic", "src/material/plastic.rs", "src/material/metal.rs"])
p("C75", "Ambient samples of trace_ray start from the same ray",
  "At a diffuse surface every ambient sample is drawn for the same incoming ray (same depth, weight, colour and medium), whatever the samples before it did, and the answer of trace_ray does not depend on what earlier traces left in the scratch memory.",
  "every scene, ray, scratch memory, sequence of random draws and recursion depth",
  "the scratch memory is shared by all recursion levels; independence is a frame property over the whole recursion tree",
  ["src/ray_tracer.rs: get_global_illumination, RayTracerHelper"])
p("C76", "Radiance across a dielectric interface follows the n^2 law",
  "Seen from a medium of index n1 through an interface, radiance of a medium of index n2 appears multiplied by (n1/n2)^2 times the transmittance.",
  "every pair of indices and incidence angle below the critical one",
  "a law over all pairs of real indices",
  ["src/material/dielectric.rs: get_possible_paths"])
p("C77", "The sky lights diffuse surfaces",
  "The radiance trace_ray returns for a ray that hits a diffuse surface open to the sky grows with the sky's brightness.",
  "every scene, sky and sequence of random draws",
  "the statement is about all executions of a sampling loop",
  ["src/ray_tracer.rs: trace_ray, get_global_illumination"])
p("C78", "Samplers have the advertised distribution",
  "The samplers draw with the densities their callers divide by: for every measurable set, the probability that a sampled point of a disc (flat or anywhere in space) or of a triangle falls in it is its share of the area; that a sampled direction of the hemisphere or sphere falls in it is its share of the solid angle; that a cosine-weighted direction falls in it is the integral of the cosine over it divided by pi.",
  "every measurable set of points or directions, every disc, triangle and basis",
  "a statement about probabilities of all measurable sets; tests see finitely many draws",
  ["src/samplers.rs"])
p("C79", "Light samplers draw directions with the density they report",
  "The probability with which the direction sampler of a light draws a direction inside a given set of directions equals the integral over the set of the density the light reports for shadow rays.",
  "every light, reference point and set of directions",
  "a statement about measures over all real draws",
  ["src/primitive.rs: sample_direction", "src/primitive_samplers.rs", "src/triangle.rs: intersect_pdf"])
p("C80", "A row of daylight coefficients never exceeds pi",
  "In a scene whose surfaces emit nothing and reflect at most what they receive, the coefficients in each row returned by calc_dc sum to at most pi per channel: a sensor cannot collect more than a uniform sky of unit radiance delivers.",
  "every scene, sensor, sampling configuration and sequence of random draws",
  "energy conservation over the whole recursion tree and all draws",
  ["src/daylight_coefficients.rs: calc_dc, trace_ray"])
p("C81", "Substances are added once",
  "When a scene is built from a SIMPLE model, a substance that has been added to the scene before (by name) is not added again: every later use refers to the material added first.",
  "every model",
  "a statement about all pairs of uses in all models",
  ["src/from_simple_model.rs: SimpleModelReader::push_substance (documentation), get_modifier_index"])
p("C82", "Both wavelength ranges are supported",
  "Scene::from_simple_model builds a scene from every well-formed SIMPLE model for each of the wavelength ranges it offers, Solar and Visible.",
  "every model and wavelength range",
  "a totality statement over all models",
  ["src/scene.rs: from_simple_model, Wavelengths", "src/from_simple_model.rs: build_scene"])
p("C83", "Glazing transmits what the model says",
  "A substance of a SIMPLE model with solar transmittance tau becomes a glass, and a pane of that glass transmits the fraction tau of light at normal incidence, up to the rounding of the printed constants.",
  "every transmittance from 0.001 to 1",
  "a real-valued identity between the reader's formula and the glass model",
  ["src/from_simple_model.rs: transmittance_to_transmissivity, substance_to_material", "src/material/glass.rs: refl_trans"])
p("C84", "Materials of SIMPLE models do not create energy",
  "Every substance with absorptance between 0 and 1 and transmittance between 0 and 1 becomes a material whose reflectance and transmittance add up to at most 1 in every channel.",
  "every substance and incidence",
  "an inequality over real-valued substances and directions",
  ["src/from_simple_model.rs: substance_to_material", "src/material/glass.rs: refl_trans"])
p("C85", "The sun of the Perez sky delivers the direct illuminance",
  "When the sun is up, Scene::add_perez_sky adds exactly one grey light and one distant source in the sun's direction, whose luminance times the solid angle of the 0.533 degree disc is the direct normal irradiance times the luminous efficacy of the Perez model; everything else but the sky is unchanged, and at night only the sky changes.",
  "every scene, date, place and irradiance",
  "an identity over real-valued weather data and all scenes",
  ["src/scene.rs: add_perez_sky"])
p("C86", "Turning every light up by a factor multiplies the picture by it",
  "If every light material and the sky are made k times as bright and nothing else changes, then tracing any ray with the same random numbers returns exactly k times the colour, the same probability, consumes the same random numbers, and panics or fails to end exactly when it did before.",
  "every scene, factor, ray, tracer settings and random sequence",
  "an equality between two executions over unbounded recursion and all scenes",
  ["src/ray_tracer.rs: trace_ray, get_local_illumination, sample_light_array, get_global_illumination, intersect_light"])
p("C87", "Without light there is no image",
  "In a scene whose light materials are all black and whose sky is black or missing, every ray that returns brings back exactly black, whatever the materials and shapes of the other surfaces: nothing but lights and the sky creates light.",
  "every scene without light, ray, tracer settings and random sequence",
  "ranges over all scenes and all random sequences, with unbounded recursion",
  ["src/ray_tracer.rs: trace_ray, intersect_light"])
p("C88", "spict takes exactly three numbers for points and directions",
  "The view point, view direction and view up given to spict are accepted exactly when they are three numbers separated by single spaces, surrounded by any white space, and are taken in the order x, y, z; what the program prints for such a triple is read back as the same triple.",
  "every argument text",
  "ranges over all strings",
  ["bin/spict.rs: Triplet::from_str, Display for Triplet"])
p("C89", "sfluxmtx reads one sensor per line or reports an error",
  "sfluxmtx makes one sensor of every line of its standard input, in order, at the position and in the (normalised) direction the line gives; if a line is not six numbers separated by single spaces, it stops with an error and computes nothing.",
  "every content of the standard input",
  "ranges over all byte strings",
  ["bin/sfluxmtx.rs: main"])
p("C90", "scompare writes the difference of two images or reports an error",
  "Given two image files of the same size, scompare writes an HDR file of that size whose pixels are the absolute differences of the radiances; the order of the files does not matter; an image compared with itself gives black; unreadable files or different sizes end the program with an error, never with a crash.",
  "every pair of files",
  "ranges over all pairs of byte strings",
  ["bin/scompare.rs: main", "bin/sfalsecolor.rs: main", "src/image.rs: diff, save_hdre, from_file"])
p("C91", "The picture spict writes shows what the camera sees",
  "Whatever the schedule of the worker threads, spict ends with an HDR file of the requested size in which the pixel of column x and row y is what trace_ray returned for the camera's ray through it: pixels that look at a light show its colour and pixels that look past everything show the sky, up to the precision of the format and whatever the random numbers; the file depends only on the seeds and not on the schedule, a scene without light gives a black picture, and turning all lights up by a factor multiplies all pixels by it.",
  "every scene, view, size, schedule and random sequence",
  "ranges over all interleavings, scenes and random sequences",
  ["bin/spict.rs: main", "src/ray_tracer.rs: render", "src/camera/pinhole.rs: gen_ray", "src/image.rs: save_hdre"])
p("C92", "Rendering does not crash",
  "Once a scene has been built, with material constants, lights and shapes accepted by the API, tracing a ray never panics, whatever the ray, the random numbers, the number of samples and of bounces (up to the depth the scratch memory has room for), and so no pixel of a picture does.",
  "every history of API calls, ray, settings and random sequence",
  "ranges over all scenes and random sequences, with unbounded recursion",
  ["src/ray_tracer.rs: trace_ray, get_local_illumination, get_global_illumination, sample_light_array", "src/primitive_samplers", "src/material"])
p("C93", "Light is never negative",
  "If no colour, light or sky value given is negative and material constants make physical sense, no ray brings back a negative amount of light in any channel, and no pixel of a picture is negative.",
  "every scene of materials that make physical sense, ray, settings and random sequence",
  "ranges over all scenes and random sequences, with unbounded recursion",
  ["src/ray_tracer.rs: trace_ray, get_local_illumination, get_global_illumination", "src/material/ward.rs", "src/interaction.rs: interpolate_normal"])
p("C94", "Daylight coefficients: no crash, never negative",
  "In a built scene whose materials and shapes were accepted by the API, computing daylight coefficients never panics, whatever the sensors, settings (with fewer bounces than the scratch memory has room for) and random numbers, and nor does sfluxmtx, unless a line gives the direction 0 0 0; and if material constants make physical sense, no coefficient is negative.",
  "every scene, list of sensors of unit direction, settings and random sequences",
  "ranges over all scenes and random sequences, with unbounded recursion",
  ["src/daylight_coefficients.rs: calc_dc, trace_ray"])
p("C95", "sfluxmtx end to end",
  "sfluxmtx writes a matrix file that reads back with one row per line of sensor input, in order, and one column per sky patch; entry (i, j) is, to five decimals, the sum of the samples of sensor i that ended in patch j. A line that is not six numbers makes it fail without writing. With nothing in the scene each row adds up the patches its sampled directions fall in, each with weight pi/n.",
  "every scene, sensor text, settings and random sequences",
  "ranges over all texts, scenes and random sequences",
  ["bin/sfluxmtx.rs: main", "src/daylight_coefficients.rs: calc_dc", "src/colour_matrix.rs: save_colour_matrix, read_colour_matrix"])
p("C96", "Daylight coefficients are computed in finite time",
  "calc_dc returns a matrix with a row per sensor and a column per patch for every scene, sensors, settings and random numbers, and so sfluxmtx, given well-formed lines, runs to the end and writes a readable file with a row per line.",
  "every scene, list of sensors of unit direction, settings and random sequences",
  "termination is about all scenes and random sequences; a test that returns says nothing about the next one",
  ["src/daylight_coefficients.rs: calc_dc, trace_ray", "bin/sfluxmtx.rs: main"])
p("C97", "Sampling a reflecting surface estimates the light it reflects",
  "When a surface is sampled, the average over the random numbers of incoming light times bsdf times cosine over density is the light the surface reflects: the integral over the hemisphere of the incoming light, times the bsdf, times the cosine.",
  "every matt or glossy surface, incoming direction and distribution of incoming light",
  "a statement about averages over all random numbers and all lights",
  ["src/material/mod.rs: sample_bsdf", "src/material/ward.rs: sample_ward_anisotropic"])
p("C98", "Without bounces, daylight coefficients are on average the sky each sensor sees",
  "With max_depth 0 and no mirrors, glass or dielectrics, the mean over the random numbers of the coefficient of sky patch j at a sensor is the integral of the cosine with the sensor's direction over the directions of patch j in which no triangle is in the way.",
  "every scene, sensor, division of the sky into patches, number of samples and random sequences of the others",
  "a statement about averages over all random numbers, for all scenes",
  ["src/daylight_coefficients.rs: calc_dc, trace_ray", "src/samplers.rs: sample_cosine_weighted_horizontal_hemisphere"])
p("C99", "Evaluating a mirror or dielectric agrees with the paths it offers",
  "What a mirror or a dielectric reflects or transmits in the direction of a path it offers, times the cosine of that direction with the normal, is the weight of the path; in every other direction it is nothing.",
  "every mirror and dielectric, colour, index of refraction, incoming ray and direction",
  "ranges over all directions and indices; the tests compare a handful",
  ["src/material/dielectric.rs: eval_bsdf, get_possible_paths", "src/material/mirror.rs: eval_bsdf", "src/material/specular.rs: eval_mirror_bsdf"])
p("C100", "Direct sunlight on matt surfaces",
  "The light seen on a matt surface lit by one sun that stands above its horizon is, on average over the random numbers, the integral over the part of the sun's disc not hidden by any object of the sun's radiance times the colour over pi times the cosine, to within two parts in a hundred thousand for suns no wider than a hundredth of a radian, whatever the number of shadow samples.",
  "every scene with one distant source, matt surface, colour, position of the sun and number of shadow samples",
  "a statement about averages over all random numbers, for all scenes",
  ["src/ray_tracer.rs: trace_ray, get_local_illumination, sample_light_array", "src/primitive_samplers.rs: source_solid_angle_pdf, source_direction", "src/samplers.rs"])
p("C101", "The accelerator divides triangles by the surface area heuristic",
  "Wherever the accelerator divides a group of more than four triangles it is at the cheapest of eleven places along the longest axis, counting for each part the number of triangles times the surface of the box around them; a group is left undivided only if no place is cheaper than testing its triangles one by one, or if they are all in the same place; and so no leaf has more than twenty four triangles unless that many are in the same place.",
  "every list of triangles and outcome of the unstable sorts",
  "answers of queries do not depend on it (C07), so that no test of answers can see it; it ranges over all scenes",
  ["src/bvh.rs: BoundingVolumeTree::new, Node::recursive_build, get_bucket_index"])
p("C102", "False-colour pictures show the luminances of the image read",
  "sfalsecolor, for every image file that can be read, writes a picture of the same size in which each pixel has the colour of its luminance on the chosen scale, from the minimum to the maximum asked for (by default from nothing, or 0.001 on logarithmic scales, to the brightest pixel), linear or logarithmic as asked; scompare with a colour map writes the same for the differences of two images of the same size.",
  "every image file, limits, scale and colour map",
  "ranges over all images and options; a test compares a few pictures",
  ["bin/sfalsecolor.rs: main", "bin/scompare.rs: main", "src/image.rs: save_falsecolour, save_log_falsecolour, diff"])
p("C103", "The programs trace the scene described by the file",
  "The scene that spict and sfluxmtx load from a file has exactly the surfaces and lights its text describes, each with the first material defined under the name of its modifier; every ray traced in it meets the nearest of those surfaces and is given the light of that material, or meets nothing if none of them is in its way; and so lights of the text that are in view appear in the picture.",
  "every scene file, ray and camera",
  "ranges over all texts and rays",
  ["bin/spict.rs: main", "bin/sfluxmtx.rs: main", "src/from_radiance.rs: from_radiance_source", "src/scene.rs: build_accelerator, cast_ray"])
p("C104", "Tracing ends with probability one when specular bounces may count",
  "When bounces off mirrors and through glass are counted with a positive probability (count_specular_bounce), tracing any ray in a scene that has been built ends with probability one, the random numbers being independent and uniform.",
  "every scene, ray, settings and almost every sequence of random numbers",
  "a statement about the probability of endless executions: no test can observe one, and a run that ends shows nothing about the others",
  ["src/ray_tracer.rs: trace_ray (specular paths, count_specular_bounce)", "src/material/glass.rs: get_possible_paths", "src/material/mirror.rs: get_possible_paths", "src/material/dielectric.rs: get_possible_paths"])
p("C105", "The noise of daylight coefficients falls with the number of samples",
  "With max_depth 0 and no mirrors, glass or dielectrics, the probability that the coefficient of sky patch j at a sensor, computed with n samples, differs by e or more from the integral of the cosine over the part of the patch the sensor sees is at most 2 exp(-2 n e^2 / pi^2).",
  "every scene, sensor, division of the sky into patches, number of samples and error",
  "a statement about the probability of errors, over all random numbers and all scenes",
  ["src/daylight_coefficients.rs: calc_dc, trace_ray", "src/samplers.rs: sample_cosine_weighted_horizontal_hemisphere"])
p("C106", "The noise of sunlight falls with the number of shadow samples",
  "On a matt surface lit by one sun that stands above its horizon, the probability that the light computed with n shadow samples is more than e times the light of an unhidden, perpendicular sun away from the integral over the part of the sun that is not hidden (up to two parts in a hundred thousand) is at most 2 exp(-2 n e^2).",
  "every scene with one distant source, matt surface, colour, position of the sun, number of shadow samples and error",
  "a statement about the probability of errors, over all random numbers and all scenes",
  ["src/ray_tracer.rs: trace_ray, get_local_illumination, sample_light_array", "src/primitive_samplers.rs: source_direction, source_solid_angle_pdf"])
p("C107", "The way to a light",
  "From any point other than a triangle's centroid or a sphere's centre, Primitive::direction gives a unit direction and a distance that lead to the triangle's centroid, or to the point of the sphere nearest to the given one (the distance is negative exactly for points inside the sphere); every direction sampled towards a sphere from outside lies in the cone around that direction that just contains the sphere. The direction to a distant source is the same from everywhere. For cylinders the call panics.",
  "every triangle, sphere, distant source, point and random numbers",
  "ranges over all real positions, sizes and random numbers",
  ["src/primitive.rs: direction, sample_direction", "src/primitive_samplers.rs: triangle_direction, sphere_direction, source_direction, sample_sphere_surface"])
p("C108", "A scene is the same everywhere",
  "Displacing every object of a scene and the viewer by the same vector changes nothing: the same calls succeed, displaced rays meet the same triangles at the displaced points, tracing with the same random numbers gives the same light, and the picture taken from the displaced view point is the same.",
  "every history of scene calls, displacement, ray, picture, settings and random numbers",
  "relates two executions for all scenes, displacements and random numbers",
  ["src/scene.rs: push_object, build_accelerator, cast_ray, unobstructed_distance", "src/bvh.rs: new, intersect, unobstructed_distance", "src/triangle.rs: mesh_sphere, triangle_solid_angle_pdf", "src/primitive_samplers.rs: triangle_solid_angle_pdf", "src/ray_tracer.rs: trace_ray, render"])
p("C109", "Materials matter by what they are, not by their numbers",
  "Two sequences of calls that push the same objects (with equal materials on each side), builds and skies in the same order, but push the materials in another order, at other moments, twice or in vain, crash or succeed alike, and the resulting scenes answer alike: cast_ray, unobstructed_distance, trace_ray (same random numbers), calc_dc and the pictures of spict.",
  "every pair of call sequences that differ only in the numbering of materials, every query, every random stream",
  "quantifies over histories and over all scenes and rays",
  ["src/scene.rs: Scene::push_material, push_object, add_perez_sky", "src/ray_tracer.rs: trace_ray, intersect_light", "src/daylight_coefficients.rs: calc_dc"])
p("C110", "RGBE files are faithful in double precision",
  "With every operation rounded to double precision, and a mathematics library whose log2 and exp2 are within 0.55 units in the last place, every pixel with largest channel between 1e-18 and 2^126 comes back from an RGBE file within one step of the format (1/128 of the largest channel, up to one part in 1e9) and no channel comes back brighter (up to one part in 1e9); pixels below the threshold come back black.",
  "every triple of non-negative doubles in range, every library with the stated accuracy",
  "2^192 pixels, and the rounding of every operation of every conforming library",
  ["src/image.rs: rusty_frexp, rusty_ldexp, colour_to_rgbe, rgbe_to_colour"])
p("C111", "Rays do not slip through walls",
  "With every operation rounded to double precision, the ray/triangle test misses no hit and invents none: a ray that goes through the middle of a wall hits one of the triangles the wall is made of, and a ray reported to hit a triangle goes through it.",
  "every triangle and ray with double precision coordinates up to 5000 in size and direction components up to one",
  "2^960 combinations of doubles; the failing ones are slivers along the edges",
  ["src/triangle.rs: baricentric_coorinates, triangle_intersect, simple_triangle_intersect, cross, dot"])
p("C112", "Surfaces do not glow",
  "In a flat-shaded scene lit only by suns, no ray brings back more light than the suns can supply: if every surface is matt and reflects at most rho of a channel, a ray that meets a surface returns at most rho E/pi (1 + rho + ... + rho^max_depth), where E is the sum of radiance times solid angle over the suns, and hence at most rho E/(pi (1-rho)); with mirrors and panes of glass in the scene, at most the brighter of that and the brightest point of the sky. The same holds for every pixel of every picture.",
  "every scene, ray, setting, sky, sequence of random numbers, number of bounces and schedule; not on average, but for each ray",
  "a bound on every random walk in every scene",
  ["src/ray_tracer.rs: trace_ray, get_local_illumination, get_global_illumination, sample_light_array, render", "src/material/ward.rs", "src/material/mirror.rs", "src/material/glass.rs"])
p("C113", "Only rays that the camera sees belong to a pixel",
  "pixel_from_ray gives weight one to a ray from the view point exactly if the ray leaves the camera through a pixel of the picture, and then names that pixel; every other ray gets weight zero.",
  "every camera, film resolution and direction",
  "all directions; the library's own test only uses rays generated by the camera itself",
  ["src/camera/pinhole.rs: pixel_from_ray, gen_ray"])
p("C114", "The light of two groups of lamps adds up",
  "Divide the light of a scene among two copies of it: every light emits in the scene what it emits in the two copies together (for instance, one group of lamps is switched off in each copy), and so does the sky. Then the three are built or refused together, a ray traced with the same random numbers brings the sum of what it brings in the copies, and every pixel of a picture is the sum of that pixel in the pictures of the copies.",
  "every scene, every division of the emission, every ray, setting, random stream and schedule",
  "quantifies over all scenes and random numbers; relates three executions",
  ["src/ray_tracer.rs: trace_ray, sample_light_array, intersect_light, get_global_illumination, render", "src/scene.rs: push_object, add_perez_sky"])
p("C115", "Obstacles only take light away",
  "Pushing further objects that do not emit light never makes a ray miss what it would have hit or hit it farther away, never brings a hidden point into view, never increases the direct light at a point of a plastic or metal surface (same random numbers), and never increases a daylight coefficient computed without interreflections.",
  "every scene, every list of further objects, every ray clear of the edge tolerance, every material, light, random stream and sensor",
  "relates two scenes of any size; a monotonicity over all extensions of a scene",
  ["src/scene.rs: push_object, cast_ray, unobstructed_distance", "src/bvh.rs: intersect, unobstructed_distance", "src/ray_tracer.rs: sample_light_array, intersect_light, get_local_illumination", "src/daylight_coefficients.rs: calc_dc"])
p("C116", "Casting a ray and asking for a view give the same answer",
  "If cast_ray finds nothing along a ray, unobstructed_distance reports every point of the ray in view; if it finds a surface, points well behind the surface are reported hidden; and whenever a point is reported hidden, cast_ray finds a surface in front of it.",
  "every scene, ray clear of the edge tolerance, and distance; whatever the order of the triangles in the accelerator",
  "two separate traversals of trees of any shape",
  ["src/bvh.rs: intersect, unobstructed_distance", "src/scene.rs: cast_ray, unobstructed_distance", "src/triangle.rs: triangle_intersect, simple_triangle_intersect"])
p("C117", "If I can see you, you can see me",
  "unobstructed_distance gives the same answer from either end of a segment.",
  "every scene, segment and length",
  "all pairs of points in all scenes",
  ["src/scene.rs: unobstructed_distance", "src/bvh.rs: unobstructed_distance"])
p("C118", "No daylight in a room without windows",
  "In a scene that contains the six sides of a closed room, every ray from a point in the room is stopped, whatever else is in the scene; daylight coefficients there are zero, and what a ray brings back does not depend on the sky.",
  "every room, scene around it, point, direction, sky, setting and sequence of random numbers",
  "all positions and directions: leaks are slivers",
  ["src/scene.rs: cast_ray", "src/triangle.rs: baricentric_coorinates", "src/bvh.rs: intersect", "src/ray_tracer.rs: trace_ray", "src/daylight_coefficients.rs: calc_dc"])
p("C119", "The mean picture solves the rendering equation",
  "In a scene of matt surfaces under any number of suns, the average of what trace_ray brings back over the random numbers is exactly the light of the rendering equation up to max_depth reflections: at every surface the sunlight it reflects, plus colour/pi times the irradiance integral of the light arriving from the hemisphere, a path below limit_weight being followed with probability weight/limit_weight. So the mean does not depend on the numbers of shadow and ambient samples, raising max_depth never removes light, giving up light paths never adds light, the mean of every pixel of a rendered picture is that light along the camera's ray for every schedule, and the light is at most D (1 + rho + rho^2 + ...) if surfaces reflect at most rho and show at most D of sunlight.",
  "every such scene of any size, every ray, camera, pixel, channel, schedule, setting with at least one shadow sample, and all sequences of random numbers at once",
  "an equality of integrals over infinitely many random sequences and over nested hemispheres",
  ["src/ray_tracer.rs: trace_ray, get_local_illumination, get_global_illumination, sample_light_array", "src/material/mat_trait.rs: sample_bsdf, eval_bsdf", "src/samplers.rs: uniform_sample_disc, local_to_world", "src/scene.rs: cast_ray, unobstructed_distance"])
p("C120", "A sky without brightness changes nothing",
  "Adding a sky whose brightness is zero in every direction changes neither the light any ray brings back nor whether tracing it ends.",
  "every scene without a sky, every ray, setting, sky colour and sequence of random numbers",
  "relates two executions over all scenes and random numbers; a defect shows only as a bias, or as a loop that never ends",
  ["src/ray_tracer.rs: trace_ray, get_global_illumination", "src/scene.rs: sky, add_perez_sky"])
p("C121", "Openings to the sky do not change the light that surfaces exchange",
  "In a scene of matt surfaces under suns, giving the scene a sky leaves the mean light of the rendering equation along rays that meet surfaces as it was, apart from what the sky itself adds: tracing almost surely ends, and the mean light of reflections between surfaces does not depend on how much of the hemisphere is open to the sky.",
  "every such scene of any size, every sky and sky colour, ray, channel, setting with at least one shadow sample, and all sequences of random numbers at once",
  "an equality of integrals over infinitely many random sequences, with a rejection loop without bound inside each of them",
  ["src/ray_tracer.rs: trace_ray, get_global_illumination", "src/scene.rs: cast_ray, sky, add_perez_sky"])
p("C122", "Tracing deeper approaches the exact light",
  "In a scene of matt surfaces under suns the mean picture never exceeds the exact light, the solution of the rendering equation without a limit on reflections, and with limit_weight 0 it misses at most a constant of the scene times rho^(max_depth + 1), if surfaces reflect at most the share rho < 1; then the exact light is the only bounded solution. As max_depth grows the means increase towards the least solution.",
  "every such scene of any size, every ray, channel, max_depth, and number of samples, and all sequences of random numbers at once",
  "a limit over settings of integrals over infinitely many random sequences, compared with an integral equation",
  ["src/ray_tracer.rs: trace_ray, get_local_illumination, get_global_illumination", "src/ray.rs: get_n_ambient_samples", "src/material/mat_trait.rs: sample_bsdf, eval_bsdf"])
p("C123", "The mean picture with mirrors, glass and dielectrics",
  "In a scene of matt surfaces, mirrors, panes of glass and dielectrics under any number of suns, the average of what trace_ray brings back over the random numbers is exactly the light that satisfies, at matt surfaces, the rendering equation of C119, and at a mirror, pane or dielectric is the sum over the paths it offers of their weight times the light that arrives along them, a step of such a path counting as a bounce with probability min(1, count_specular_bounce). So the mean does not depend on the numbers of shadow and ambient samples.",
  "every such scene of any size and every ray all of whose paths end (for instance because count_specular_bounce is 1, or because a ray meets at most b specular surfaces in a row), every channel, setting with at least one shadow sample, and all sequences of random numbers at once",
  "an equality of integrals over infinitely many random sequences and branching random paths",
  ["src/ray_tracer.rs: trace_ray, get_local_illumination, get_global_illumination", "src/material/mirror.rs: get_possible_paths", "src/material/glass.rs: get_possible_paths", "src/material/dielectric.rs: get_possible_paths", "src/scene.rs: cast_ray"])
p("C124", "Sunlight comes through glass",
  "A surface behind panes of transparent glass is lit by the sun: if light gets from the sun to a matt surface through panes of clear glass, rays that meet the surface bring back sunlight.",
  "every scene with panes of glass between suns and surfaces, every ray, setting and sequence of random numbers",
  "all scenes, directions and random numbers: whether any path through the glass is ever found cannot be seen from a few renderings",
  ["src/ray_tracer.rs: get_local_illumination, sample_light_array, intersect_light, trace_ray", "src/scene.rs: unobstructed_distance", "src/material/glass.rs: get_possible_paths"])
p("C125", "The noise of different pixels is uncorrelated",
  "In a rendering of matt surfaces under suns, every pixel is distributed as though its ray was traced alone with a generator of its own, and if the generators of the chunks are independent, the noise of different pixels is uncorrelated, although the pixels of a chunk share a generator and whatever the schedule of the workers: the mean of the product of two pixels is the product of their means, and the noise of the average of n pixels is the sum of their noises divided by n^2.",
  "every such scene of any size, every camera, pair or set of pixels, channel, schedule, setting with at least one shadow sample, and all sequences of random numbers at once",
  "a statement about the joint distribution of pixels over infinitely many random sequences and all schedules",
  ["src/ray_tracer.rs: render, trace_ray, get_local_illumination, get_global_illumination", "src/camera/pinhole.rs: gen_ray", "src/rand.rs: get_rng"])
p("C126", "More samples, less noise: the law of the noise and convergence",
  "In a scene of matt surfaces under suns, the mean squared error of the light trace_ray brings back along a primary ray (and of every pixel of a picture) is A / n_shadow_samples + B / n_ambient_samples with finite A and B that do not depend on the numbers of samples. So with enough samples it is as close as desired, and as surely as desired, to the light of the rendering equation; and, where surfaces reflect at most the share rho < 1, to the exact light if also max_depth is large enough and limit_weight is 0.",
  "every such scene of any size, every ray, camera, pixel, channel, schedule, number of samples, and all sequences of random numbers at once",
  "an exact equality of variances over infinitely many random sequences, and a limit",
  ["src/ray_tracer.rs: trace_ray, get_local_illumination, get_global_illumination, sample_light_array, render", "src/ray.rs: get_n_ambient_samples", "src/material/mat_trait.rs: sample_bsdf, eval_bsdf"])
p("C127", "Daylight coefficients with reflections are on average the sky seen by reflection",
  "In a scene of matt surfaces the mean, over the random numbers, of the daylight coefficient of a sky patch at a sensor is the irradiance of the sensor if that patch has radiance 1 and the rest of the sky is dark, with the light that arrives directly and by reflections, for every number of samples; so the coefficients of a sensor never add up to more than pi on average if no surface reflects more than it receives.",
  "every such scene of any size, every sensor, sky patch, channel, max_depth, number of samples, and all sequences of random numbers at once",
  "an integral over the hemisphere of integrals over hemispheres, for every scene; no finite number of runs gives the mean",
  ["src/daylight_coefficients.rs: calc_dc, trace_ray", "src/ray.rs: get_n_ambient_samples", "src/material/mat_trait.rs: sample_bsdf"])
p("C128", "Daylight coefficients depend on the surfaces, not on the lights",
  "Two scenes with the same surfaces, materials and build calls have the same daylight coefficients for every list of sensors, whatever their skies, suns and the colours and brightness of their lamps: coefficients computed once can be used for every sky.",
  "every pair of building histories that differ only in lights (and in how materials are numbered), every sensor, setting and sequence of random numbers",
  "all pairs of scenes of any size and all random sequences; equality, not closeness",
  ["src/daylight_coefficients.rs: calc_dc, trace_ray", "src/scene.rs: push_object, push_material, add_perez_sky, build_accelerator"])
p("C129", "Daylight coefficients do not depend on where the scene stands",
  "Displacing every object of a scene and every sensor by the same vector leaves the daylight coefficients exactly unchanged, lamps, mirrors and glass included (in exact arithmetic and for the same random numbers).",
  "every building history, displacement, list of sensors, setting and sequence of random numbers",
  "all scenes, displacements and random sequences; the accelerator is rebuilt for the displaced scene and must give the same answers",
  ["src/daylight_coefficients.rs: calc_dc, trace_ray", "src/scene.rs: push_object, build_accelerator", "src/bvh.rs: BoundingVolumeTree::new, intersect"])
p("C130", "Pictures show the light of the scene's geometry",
  "In a scene of matt surfaces under any number of suns, with limit_weight 0, the mean of every pixel is the light that the triangles, the colours of their sides and the suns determine: at the first surface along the ray, colour / pi times the sum of the integrals of radiance times cosine over the visible parts of the discs of the suns and the integral of arriving light times cosine over the hemisphere, and so on for max_depth + 1 reflections. As max_depth grows it tends to the light in balance with the geometry; if no surface reflects more than the share rho < 1 there is one such light, and at most a constant times rho^(max_depth + 1) of it is missing. (The disc of a sun is not weighted evenly, but for suns below a hundredth of a radian the weight differs from one by at most 1 / 50000 and is one on average.)",
  "every such scene of any size, every ray, camera, pixel, schedule, channel, max_depth, number of samples, and all sequences of random numbers at once",
  "integrals over directions, nested as deep as reflections go, against means over infinitely many random sequences",
  ["src/ray_tracer.rs: trace_ray, get_local_illumination, get_global_illumination, sample_light_array, render", "src/scene.rs: cast_ray, unobstructed_distance", "src/samplers.rs: uniform_sample_disc", "src/primitive.rs: Primitive::sample_direction, solid_angle_pdf", "src/material/mat_trait.rs: sample_bsdf, eval_bsdf"])
p("C131", "Daylight coefficients are those of the scene's geometry",
  "In a scene of matt surfaces, with one ambient sample per sensor and reflection, the mean of the daylight coefficient of a sky patch is what the sensor receives, by the geometry of the triangles and the colours of their sides alone, from a sky that is dark but for that patch: the integral of the light over the sensor's hemisphere, weighted with the cosine, where a ray that meets nothing shows the sky and a ray that meets a surface shows colour / pi times the integral over the hemisphere of that surface, for at most max_depth + 1 reflections. For a sky of any radiances, the coefficients times the radiances add up to the light that the sensor receives from it.",
  "every such scene of any size, every list of sensors, division of the sky, sky, channel, max_depth from 1 to 14, limit_weight from 0 to 1, and all sequences of random numbers at once",
  "nested integrals over directions against means over infinitely many random sequences",
  ["src/daylight_coefficients.rs: calc_dc, trace_ray", "src/scene.rs: cast_ray", "src/ray.rs: get_n_ambient_samples", "src/material/mat_trait.rs: sample_bsdf"])
p("C132", "Ray casting in double precision",
  "With every number a rounded binary64 number: building the accelerator never panics, never loops and permutes the rows, whatever the triangles; casting a ray through the tree gives, to the last bit, what testing every triangle with the double-precision test would give, and never misses a triangle that the exact ray goes through and whose own test reports a hit. In a scene of up to a kilometre the triangle reported is met by the exact ray up to an explicit rounding margin, no triangle that the ray goes well through is nearer by more than an explicit blur, nothing is reported only if the ray goes well through no triangle; a triangle well between a point and its target obstructs, and an answer of obstructed is caused by a triangle that the ray meets, up to the margin, before the target.",
  "every list of triangles and every ray with binary64 coordinates, every sort, selection and conservative box test of the libraries",
  "the rounding errors depend on all the bits of every coordinate and on the tree that was built; no sample of rays covers them",
  ["src/bvh.rs: BoundingVolumeTree::new, recursive_build, get_bucket_index, intersect, unobstructed_distance", "src/triangle.rs: baricentric_coorinates, simple_triangle_intersect"])
p("C133", "Brighter paint never makes a darker picture",
  "In a scene of matt surfaces lit by suns, painting surfaces brighter (the same calls, with matt materials whose colours are nowhere darker) never makes the mean of what trace_ray returns smaller, in any channel, along any ray: for every max_depth, number of samples and limit_weight; nor the mean of any pixel, nor, with one ambient sample, of any daylight coefficient. If every colour is at least f >= 1 times brighter the mean is at least f times larger; if every colour is at most f times brighter and limit_weight is 0 it is at most f^(max_depth + 1) times larger.",
  "every building history of such a scene and every repainting of it, every ray, camera, pixel, schedule, sensor, channel and setting, and all sequences of random numbers at once",
  "a comparison of two means over infinitely many random sequences, for two scenes whose rays part at every Russian roulette",
  ["src/ray_tracer.rs: trace_ray, get_local_illumination, get_global_illumination, render", "src/daylight_coefficients.rs: calc_dc", "src/ray.rs: get_n_ambient_samples", "src/scene.rs: push_material, push_object"])
p("C134", "An interrupted save is not taken for a complete file",
  "If writing a matrix, a colour matrix or an HDR picture stops after any number of bytes (full disk, killed process), reading what is left returns an error: it never panics, and never returns data as if the file were complete. (The code does return data: rows that are missing are zero, the last number and the number of columns may be cut to shorter numbers, pixels may be missing; what exactly is returned is proved.)",
  "every matrix, colour matrix and picture, and every number of bytes at which writing stops",
  "every crash point of every file; tests cut a few",
  ["src/colour_matrix.rs: save_matrix, save_colour_matrix, read_matrix, read_colour_matrix", "src/image.rs: save_hdre, from_file"])
p("C135", "False colours can be read back",
  "In the pictures that sfalsecolor writes, a pixel of larger luminance never looks darker (but for the rounding of the three bytes to 8 bits), and two pixels of the same colour, with luminances on the scale, have luminances (with --log: logarithms) that differ by at most a fortieth of the scale. Close luminances have close colours, and the ends of each scale have the published colours. (True for inferno, magma, plasma, viridis; the order of brightness is violated by the scale of Radiance.)",
  "every readable picture, every pair of pixels, every minimum and maximum, linear or logarithmic, every scale",
  "tests compare a few values; an error in one of 256 entries of a table, or between two of them, goes unnoticed",
  ["src/colourmap/mod.rs: map_linear_colour", "src/colourmap/inferno.rs", "src/colourmap/magma.rs", "src/colourmap/plasma.rs", "src/colourmap/viridis.rs", "src/colourmap/radiance.rs", "src/image.rs: save_falsecolour, save_log_falsecolour", "bin/sfalsecolor.rs"])
p("C136", "False colours survive double precision",
  "save_falsecolour computes in double precision: it writes a picture for every image and all limits, and each pixel gets, but for a millionth in each channel before rounding to bytes, the colour of its exact luminance on the scale between the exact limits. (Violated: with a positive lower limit a luminance just below the upper end makes it panic. Proved to be written whenever the lower limit is absent or not positive, and otherwise when no luminance is within a millionth of the scale of its upper end.)",
  "every image of non-negative doubles, every scale, every pair of limits whose lower end is not more than 1000 times the length of the scale",
  "rounding errors depend on the last bits of every value; the luminances that fall between the last computed stop and the limit are a few doubles out of 2^64",
  ["src/image.rs: save_falsecolour", "src/colourmap/mod.rs: map_linear_colour", "src/colour.rs: radiance, luminance"])
p("C137", "sfalsecolor and scompare -m in double precision",
  "From the bytes of the files to the bytes of the pictures, with every computation rounded to double precision: HDR files are read exactly; sfalsecolor writes a picture for every complete file and gives each pixel, to a millionth, the colour of its exact luminance on the scale between the exact limits; scompare -m, for two complete files of the same size, writes a picture and gives each pixel, to two millionths, the colour of the exact difference of the two luminances. An image compared with itself is everywhere the first colour of the map. (Violated: with no maximum given, pictures that do not differ anywhere in luminance may be shown with the brightest colour of the map; the colours of a comparison are proved for scales of at least a 500th of the largest luminance.)",
  "every pair of files (every sequence of bytes), every minimum and maximum, every scale",
  "rounding errors of differences of nearly equal radiances depend on the last bits of every pixel; a test compares a few files",
  ["bin/sfalsecolor.rs", "bin/scompare.rs", "src/image.rs: from_file, diff, save_falsecolour", "src/colourmap/mod.rs: map_linear_colour", "src/colour.rs: radiance, luminance"])
p("C138", "Pictures with mirrors, panes of glass and dielectrics: energy, mean and noise",
  "In a scene whose lights are suns, with matt surfaces and physical mirrors, panes of glass and dielectrics: (1) if the matt surfaces reflect at most the share rho of the light of a channel and show at most D of sunlight, the dielectrics absorb light rather than add it and none is denser than top >= 1, then the mean of what trace_ray brings back along a ray in a medium of index eta is at most (top/eta)^2 D (1 + rho + rho^2 + ...), one term per bounce that max_depth allows, however often the light passes through glass or off mirrors without being counted; such a finite D exists in every scene. (2) The same bound holds for the mean of every pixel that RayTracer::render makes, and that mean is the light of the equation with all splits followed, whatever the schedule of the worker threads. (3) The colour of a pixel has the distribution of the light of its own ray traced with a fresh generator; the noise of different pixels is uncorrelated (also within a chunk, where they share a generator), so the noise of the average of n pixels is the sum of their noises divided by n^2.",
  "every world that renders such a scene, every ray and medium, all settings, every camera and size of picture, every schedule, every family of endless uniform generators for the chunks, every channel, every set of pixels",
  "The bound is an expectation of a branching random recursion whose depth max_depth alone does not limit; a test sees samples of a few pixels and cannot tell a sum of correlated noises from uncorrelated ones.",
  ["src/ray_tracer.rs: RayTracer::trace_ray", "src/ray_tracer.rs: RayTracer::render", "src/material/mod.rs: Material::get_possible_paths", "src/material/glass.rs", "src/material/dielectric.rs", "src/material/mirror.rs"])
p("C139", "Deeper tracing approaches the exact light, with mirrors, panes of glass and dielectrics",
  "In a scene whose lights are suns, with matt surfaces and physical mirrors, panes of glass and dielectrics: with limit_weight 0 the means of what trace_ray brings back with max_depth 0, 1, 2, ... tend to the light of the scene: the least solution of the rendering equation in which every split of the light at a pane, dielectric or mirror is followed and the number of reflections is not limited. If the matt surfaces reflect at most a share rho < 1, the dielectrics add no light, none is denser than top >= 1 and at most b mirrors or panes follow each other, then this solution is the only bounded one, no mean exceeds it whatever limit_weight, and with limit_weight 0 and room for k matt surfaces, each after b mirrors or panes, in max_depth the mean misses at most (top/eta)^2 rho^k B of it, B being the bound of the solution. The same two bounds hold for the mean of every pixel of every picture that RayTracer::render makes, whatever the schedule.",
  "every world that renders such a scene, every ray and medium, every number of shadow and ambient samples, every max_depth, every channel",
  "A limit of expectations of branching random recursions; a test sees a few samples at a few depths and has no exact value to compare them with.",
  ["src/ray_tracer.rs: RayTracer::trace_ray", "src/material/mod.rs: Material::get_possible_paths", "src/material/glass.rs", "src/material/dielectric.rs", "src/material/mirror.rs"])
p("C140", "False colours written in double precision can be read back",
  "From the bytes of the files to the bytes of the pictures, with every computation rounded to double precision: in the pictures of sfalsecolor with inferno, magma, plasma or viridis a pixel of larger luminance never looks darker (but for 1.51 of the 255 levels, the rounding of three bytes), and two pixels of the same colour, with luminances on the scale, have luminances that differ by at most a fortieth of the scale. The same holds for the differences shown by scompare -m. Pixels beyond the ends of any of the five scales have the published first and last colours.",
  "every readable picture or pair of pictures, every pair of pixels, every minimum and maximum whose lower end is at most 1000 times (comparisons: 500 times, and no luminance more than that) the length of the scale",
  "a rounding error of one luminance or colour stop depends on its last bits; tests compare a few values",
  ["bin/sfalsecolor.rs", "bin/scompare.rs", "src/image.rs: save_falsecolour, diff, from_file", "src/colourmap/mod.rs: map_linear_colour"])
p("C141", "Clearer glass and brighter paint never make a darker picture",
  "Building the same scene again with brighter paint on the matt surfaces, with clearer panes of glass (channel by channel; panes that are not black to begin with), with dielectrics of a lighter tint and with mirrors of any colour makes nothing darker: the mean of what comes back along any ray, and of every pixel of a picture, is at least what it was, in every channel. In particular a clearer pane reflects no less and transmits no less, from either side and at every angle.",
  "every sequence of calls that builds a scene of flat surfaces lit by suns, every better choice of colours, every setting, ray, picture, schedule and generator",
  "a darker pixel may show after any number of reflections and in a mean over all random numbers; tests render single pictures with single seeds",
  ["src/material/glass.rs: refl_trans, get_possible_paths", "src/material/dielectric.rs", "src/material/plastic.rs, metal.rs, mirror.rs", "src/ray_tracer.rs: trace_ray", "src/scene.rs: push_material, push_object"])
p("C142", "How much brighter paint makes a room with mirrors and windows",
  "In a scene with mirrors, panes of glass and dielectrics, painting the matt surfaces anew so that every colour is at least f >= 1 times brighter makes the mean of what comes back along any ray, and of every pixel, at least f times brighter, whatever limit_weight is. With limit_weight 0, if no colour got more than g times brighter, the mean is at most g^(max_depth + 1) times what it was, however many mirrors and panes the light passes. Paint does not change after how many passages tracing ends.",
  "every sequence of calls that builds a scene of flat surfaces lit by suns, every choice of new colours of the matt materials, every setting, ray, picture, schedule and generator",
  "the mean over all random numbers and all chains of reflections and passages is not something a test can evaluate",
  ["src/ray_tracer.rs: trace_ray", "src/material/plastic.rs, metal.rs, mirror.rs, glass.rs, dielectric.rs", "src/scene.rs: push_material, push_object"])
p("C143", "Finer settings never make a darker picture",
  "Take two settings of the ray tracer, the second cutting off no more light than the first: a max_depth at least as large, a limit_weight no larger and not negative, a count_specular_bounce no larger, ambient samples not switched off; the numbers of samples may be any positive numbers. Then the mean of what comes back along any ray, and the mean of every pixel of a picture, is in every channel no smaller with the second. If with the second settings every path ends, so it does with the first.",
  "every sequence of calls that builds a scene of matt surfaces, mirrors, panes and dielectrics lit by suns, every two such settings, every ray, picture, schedule and generator",
  "the settings change which random paths are followed and how many random numbers are drawn, so two single runs with the same seed cannot be compared; only the mean over all random numbers can",
  ["src/ray_tracer.rs: trace_ray, get_local_illumination, get_global_illumination", "src/material/mod.rs", "bin/spict.rs: main"])
p("C144", "Pictures with mirrors show the light of the scene's geometry",
  "In a scene of matt surfaces and mirrors under any number of suns, with limit_weight 0 and mirrors that count as bounces, the mean of every pixel is the light that the triangles, the materials of their sides and the suns determine: a mirror shows all the light from the mirrored direction, a matt surface colour / pi times the integrals over the visible parts of the suns and over the hemisphere, for at most max_depth + 1 surfaces. Whatever the chance that mirrors count, the mean tends, as max_depth grows, to the least light in balance with the geometry; if matt surfaces reflect at most the share rho < 1 and at most b mirrors follow each other, there is one bounded such light, and at most a constant times rho^k of it is missing, where k matt surfaces, each after b mirrors, have room in max_depth.",
  "every such scene of any size, every ray, camera, pixel, schedule, channel, max_depth, number of samples, and all sequences of random numbers at once",
  "nested integrals over directions, with chains of mirrors between them, against means over infinitely many random sequences",
  ["src/ray_tracer.rs: trace_ray, get_local_illumination, get_global_illumination", "src/material/mirror.rs: get_possible_paths", "src/material/specular.rs: mirror_direction, mirror_bsdf", "src/scene.rs: cast_ray, unobstructed_distance"])
p("C145", "Pictures through panes of glass show the light of the scene's geometry",
  "As C144, with panes of glass as well (of index at least one, not opaque, no channel brighter than one): a pane shows the light from the mirrored direction and the light straight behind it, with the shares that the physics of a pane gives: Snell's law for the cosine inside, Fresnel's reflectances of the faces for both polarisations, absorption along the way through the glass, and the infinite sums over all reflections between the faces. The mean of every pixel is the light that so meets at most max_depth + 1 surfaces; as max_depth grows it tends to the least light in balance with the geometry, which is the only bounded one, with the error of C144, if matt surfaces reflect at most the share rho < 1.",
  "every such scene of any size, every ray, camera, pixel, schedule, channel, max_depth, number of samples, and all sequences of random numbers at once",
  "nested integrals over directions with branching chains of reflections and passages between them, against means over infinitely many random sequences",
  ["src/ray_tracer.rs: trace_ray, get_local_illumination, get_global_illumination", "src/material/glass.rs: refl_trans, get_possible_paths, any_transmission", "src/material/mirror.rs: get_possible_paths", "src/material/specular.rs: mirror_direction", "src/scene.rs: cast_ray, unobstructed_distance"])
p("C146", "Pictures with dielectrics show the light of the scene's geometry",
  "As C145, with dielectrics (any positive index, any colour) as well: their surfaces show Fresnel's share (the average over both polarisations) of the light from the mirrored direction, and the rest, in the colour of the dielectric and times the squared ratio of the indices, of the light from the refracted direction in the other medium, which Snell's law gives; beyond the critical angle they show all the light from the mirrored direction. The mean of every pixel is the light that so meets at most max_depth + 1 surfaces; as max_depth grows it tends to the least light in balance with the geometry in every medium, which is the only one bounded in light per squared index, with an error of the kind of C144, if matt surfaces reflect at most the share rho < 1 and dielectrics add no light.",
  "every such scene of any size, every ray in every medium, camera, pixel, schedule, channel, max_depth, number of samples, and all sequences of random numbers at once",
  "nested integrals over directions with branching chains of reflections and refractions between media, against means over infinitely many random sequences",
  ["src/ray_tracer.rs: trace_ray, get_local_illumination, get_global_illumination", "src/material/dielectric.rs: refl_trans, get_possible_paths", "src/material/glass.rs: refl_trans, get_possible_paths", "src/material/specular.rs: cos_and_n, fresnel_reflectance, fresnel_transmission_dir, mirror_direction", "src/scene.rs: cast_ray, unobstructed_distance"])
