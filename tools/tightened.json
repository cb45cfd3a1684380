{
 "fc1": {
  "theorems": [
   "C30_linear_colours",
   "C30_log_colours_partial"
  ],
  "note": "survived; both theorems, and Spec/FalseColour.lean, were added because of it; see fc1b"
 },
 "opt21": {
  "theorems": [
   "C99_elsewhere_nothing",
   "C99_dielectric_paths_partial"
  ],
  "note": "survived; property C99 was added because of it; see opt21b"
 },
 "sam9": {
  "theorems": [
   "C79_violation_sphere",
   "C79_sphere_cap_partial"
  ],
  "note": "survived; the density reported for spheres is now part of C79; see sam9b"
 },
 "saveText: `ln (bytes \"#?SIMPLE\") ++ ln (bytes \"NROWS=\" ++ decimal cm.nrows) ++ ln (bytes \"NCOLS=\" ++ decimal cm.ncols) ++` becomes `ln (bytes \"#?SIMPLE\") ++ ln (bytes \"NROWS=\" ++ decimal cm.nrows) ++ [] ++ ln (bytes \"NCOLS=\" ++ decimal cm.ncols) ++`": {
  "theorems": [],
  "claim": "none",
  "note": "the edited program is equal to the original (an empty list is appended)"
 },
 "minCostLoop: `| some c => minCostLoop env bounds buckets is (if c < acc.1 then (c, i) else acc)` becomes `| some c => minCostLoop env bounds buckets is (if c > acc.1 then (c, i) else acc)`": {
  "theorems": [
   "C101_tree_partial",
   "C101_small_leaves"
  ],
  "claim": "cuts are made where they cost least",
  "note": "survived because no answer of a query depends on the shape of the tree; property C101 was added because of it; see bv5"
 },
 "war3": {
  "theorems": [],
  "note": "equal to the original for every material the API can build: plastic and metal pass the same roughness twice"
 },
 "prg6": {
  "theorems": [],
  "note": "equal to the original: the pinhole camera gives every ray the weight 1, which is the default value of a ray"
 },
 "getModifierIndex: `| v :: vs, i => if v = item then some i else getModifierIndex item vs (i + 1)` becomes `| v :: vs, i => if ¬ v = item then some i else getModifierIndex item vs (i + 1)`": {
  "theorems": [],
  "claim": "none",
  "note": "equal to the original through the API: the reader's list of names is never written, so it is always empty (C70)"
 },
 "BucketInfo.register: `{ count := b.count + 1` becomes `{ count := b.count - 1`": {
  "theorems": [
   "C101_tree_partial",
   "C101_small_leaves"
  ],
  "claim": "the cost of a cut counts the triangles on each side",
  "note": "survived on the tree before C101; property C101 was added because of this and the other survivors in Bvh.lean; see b5's bv mutants"
 },
 "prg14": {
  "theorems": [
   "C102_linear",
   "C102_log_partial",
   "C102_compare_linear",
   "C102_compare_log_partial"
  ],
  "note": "survived; property C102 was added because of it; see prg14b"
 },
 "sfl3": {
  "theorems": [
   "C103_loads_what_is_described",
   "C103_rays_meet_the_described",
   "C103_lights_in_picture"
  ],
  "note": "survived; property C103 was added because of it; see sfl3b"
 },
 "sfl2": {
  "theorems": [],
  "note": "equal program: reading a simple model always panics before the accelerator is built (C82_violation_programs)"
 },
 "triangleSolidAnglePdf: `else d2 / |cosTheta| / triangleArea t` becomes `else d2 / (cosTheta) / triangleArea t`": {
  "theorems": [],
  "note": "equivalent: in this branch cosTheta is at least 1e-7, so the absolute value changes nothing"
 },
 "sfalsecolor: `| .image im => falseColours im min max log map` becomes `| .image im => falseColours im max max log map`": {
  "theorems": [
   "C102_linear",
   "C102_log_partial"
  ],
  "note": "survived; property C102 was added because of mutants of this kind; see prg14b"
 },
 "asUsize: `(i % 2 ^ 64).toNat` becomes `(i % 3 ^ 64).toNat`": {
  "theorems": [],
  "note": "equivalent: for the negative numbers of an i16 both are far above any length, and both slices are out of range"
 },
 "Interaction.default: `{ point := 0, wo := 0, shading := { p := 0, normal := 0, dpdu := 0, dpdv := 0, side := .NonApplicable, u := 0, v := 0 } }` becomes `{ point := 0, wo := 0, shading := { p := 0, normal := 0, dpdu := 0, dpdv := 0, side := .NonApplicable, u := 0, v := 1 } }`": {
  "theorems": [],
  "note": "equivalent: the texture coordinate of the default interaction is written over before every read; nothing observable depends on it (C18, C53)"
 },
 "instance@40: `instance : Mul F64 := ⟨fun a b => ⟨round64 (a.val * b.val)⟩⟩` becomes `instance : Mul F64 := ⟨fun b a => ⟨round64 (a.val * b.val)⟩⟩`": {
  "theorems": [],
  "note": "equivalent: multiplication commutes"
 },
 "readSensors: `| some text => (sensorOfLine parse normalized text).bind fun r => readSensors parse normalized decode rest (rays ++ [r])` becomes `| some text => (sensorOfLine parse normalized text).bind fun r => readSensors parse normalized decode rest (rays ++ [] ++ [r])`": {
  "theorems": [],
  "note": "equivalent: appending an empty list changes nothing"
 },
 "SimpleReader.pushSubstance: `match getModifierIndex substance.name reader.modifiers 0 with` becomes `match getModifierIndex substance.name reader.modifiers 1 with`": {
  "theorems": [],
  "note": "equivalent: the reader's list is never written (the defect of C81), so the search never finds anything and its start is never seen"
 },
 "isCont: `128 ≤ b.toNat && b.toNat ≤ 191` becomes `129 ≤ b.toNat && b.toNat ≤ 191`": {
  "theorems": [
   "C65_text_is_utf8"
  ],
  "note": "survived before; the UTF-8 test used in the reader's statements is now pinned to Lean's own encoder"
 },
 "asI32: `Int.bmod n (2 ^ 32)` becomes `Int.bmod n (2 ^ 33)`": {
  "theorems": [
   "C08_casts_wrap"
  ],
  "note": "survived before (offsets stay below 2^31 in every claim's range); the cast is now characterised for all values"
 },
 "pushColours: `| x :: xs => (f x).bind fun s => (pushColours f xs).bind fun rest => .ok (colourBytes s ++ rest)` becomes `| x :: xs => (f x).bind fun s => (pushColours f xs).bind fun rest => .ok (colourBytes s ++ [] ++ rest)`": {
  "theorems": [],
  "note": "equivalent: appends an empty list"
 },
 "rustyFrexp: `let lg := Real.logb 2 |s|` becomes `let lg := Real.logb 2 (s)`": {
  "theorems": [],
  "note": "equivalent: Mathlib's Real.log is even"
 },
 "digitStep: `| none => none` becomes `| none => some default`": {
  "theorems": [
   "C65_counts_are_decimal"
  ],
  "note": "survived before; counts are now pinned to decimal notation"
 },
 "validUtf8: `else if 0xF1 ≤ b0.toNat && b0.toNat ≤ 0xF3 then isCont b1 && isCont b2 && isCont b3 && validUtf8 rest` becomes `else if 0xF1 ≤ b0.toNat && b0.toNat ≤ 0xF3 then isCont b1 && isCont b2 && isCont b3 || validUtf8 rest`": {
  "theorems": [
   "C65_text_is_utf8"
  ],
  "note": "survived on a snapshot taken before C65_text_is_utf8, which states the definition of UTF-8 independently, was added"
 },
 "glassEval: `else if cn.2.2.2.isSome ∧ dt.isSameDirection vout vin then colour * rt.2` becomes `else if cn.2.2.2.isSome ∧ dt.isSameDirection vout vin then colour * rt.1`": {
  "theorems": [
   "C50_opaque_straight_partial"
  ],
  "note": "opaque glass evaluated straight on was not pinned; now black, as no path is offered"
 },
 "saveText: `ln (bytes \"NCOMP=\" ++ ncomp) ++ ln (bytes \"FORMAT=ascii\") ++ ln [] ++` becomes `ln (bytes \"NCOMP=\" ++ ncomp) ++ [] ++ ln (bytes \"FORMAT=ascii\") ++ ln [] ++`": {
  "theorems": [],
  "note": "equivalent program: appending the empty list changes nothing"
 },
 "tripletDisplay: `print t.x ++ [' '] ++ print t.y ++ [' '] ++ print t.z` becomes `print t.x ++ [] ++ [' '] ++ print t.y ++ [' '] ++ print t.z`": {
  "theorems": [],
  "note": "equivalent program: appending the empty list changes nothing"
 },
 "getModifierIndex: `| v :: vs, i => if v = item then some i else getModifierIndex item vs (i + 1)` becomes `| v :: vs, i => if v = item then some i else getModifierIndex item vs (i)`": {
  "theorems": [],
  "note": "equivalent for every reachable state: the reader's list of modifiers is private and never written, so the search is always over the empty list"
 },
 "pixelFromRay: `if |cos| < 1 / 10 ^ 12 then .ok ((0, 0), 0)` becomes `if |cos| < 1 / 10 ^ 12 then .ok ((1, 0), 0)`": {
  "theorems": [
   "C113_weight_partial"
  ],
  "note": "nothing was claimed about rays the camera does not see; C113 was added, which also showed that rays going backwards are taken for visible"
 },
 "Interaction.default: `{ point := 0, wo := 0, shading := { p := 0, normal := 0, dpdu := 0, dpdv := 0, side := .NonApplicable, u := 0, v := 0 } }` becomes `{ point := 0, wo := 0, shading := { p := 0, normal := 0, dpdu := 0, dpdv := 0, side := .NonApplicable, u := 1, v := 0 } }`": {
  "theorems": [],
  "note": "equivalent: the texture coordinate of the default interaction is written over before every read; nothing observable depends on it (C18, C53)"
 },
 "opAssign: `(List.range 3).foldl (fun s i =>` becomes `(List.range 4).foldl (fun s i =>`": {
  "theorems": [
   "C70_assignments"
  ],
  "note": "the model ignored out-of-bounds indices; opAssign now panics on them, as the code does, and C70_assignments says it does not"
 },
 "triangleSolidAnglePdf: `else d2 / |cosTheta| / triangleArea t` becomes `else d2 * |cosTheta| / triangleArea t`": {
  "theorems": [
   "C22_density_partial"
  ],
  "note": "new theorem giving the value of the density where the code computes it correctly"
 },
 "asUsize: `(i % 2 ^ 64).toNat` becomes `(i % 2 ^ 65).toNat`": {
  "theorems": [],
  "note": "equivalent: only negative values differ, and they name positions beyond 2^63, far outside every slice, with either modulus"
 },
 "shouldReport: `decide (lp - (⌊progress⌋ : ℤ) < 1 / 10 ∧ 1 < |progress - lp|)` becomes `decide (lp - (⌊progress⌋ : ℤ) < 1 / 10 ∧ 2 < |progress - lp|)`": {
  "theorems": [
   "C41_render_display",
   "C41_dc_progress"
  ],
  "note": "survived; the two theorems were added because of it"
 },
 "opAssignScalar: `(List.range 3).foldl (fun s i =>` becomes `(List.range 4).foldl (fun s i =>`": {
  "theorems": [],
  "note": "an older version of the model; the definition has been replaced since"
 },
 "term: `| _, _ => 0` becomes `| _, _ => 1`": {
  "theorems": [],
  "note": "equivalent on matrices that can be constructed: the branch is unreachable"
 },
 "clampRoughness: `if a < 1 / 10 ^ 3 then 1 / 10 ^ 3 else a` becomes `if a < 1 / 10 ^ 3 then 1 * 10 ^ 3 else a`": {
  "theorems": [
   "C51_roughness_floor"
  ],
  "note": "survived; the theorem was added because of it"
 },
 "reachNextToken: `consumeLoop (consumeWhitespace src) (src.length + 1) r` becomes `consumeLoop (consumeWhitespace src) (src.length + 2) r`": {
  "theorems": [],
  "note": "equivalent: more fuel than the number of characters changes nothing"
 },
 "primTriangleSolidAnglePdf: `else d2 / |cosTheta| / triangleArea t` becomes `else d2 / (cosTheta) / triangleArea t`": {
  "theorems": [],
  "note": "equivalent: the branch is only reached with cos theta at least 1e-7"
 },
 "instance@41: `⟨fun a b => ⟨round64 (a.val * b.val)⟩⟩` becomes `⟨fun b a => ⟨round64 (a.val * b.val)⟩⟩`": {
  "theorems": [],
  "note": "equivalent: multiplication is commutative"
 },
 "isCont: `128 ≤ b.toNat && b.toNat ≤ 191` becomes `128 ≤ b.toNat || b.toNat ≤ 191`": {
  "theorems": [
   "C65_text_is_utf8"
  ],
  "note": "survived an older version of the theorems; C65_text_is_utf8, added since, pins UTF-8"
 },
 "saveText: `ln (bytes \"#?SIMPLE\") ++ ln (bytes \"NROWS=\" ++ decimal cm.nrows) ++ ln (bytes \"NCOLS=\" ++ decimal cm.ncols) ++` becomes `ln (bytes \"#?SIMPLE\") ++ ln (bytes \"NROWS=\" ++ [] ++ decimal cm.nrows) ++ ln (bytes \"NCOLS=\" ++ decimal cm.ncols) ++`": {
  "theorems": [],
  "note": "equivalent edit: appending the empty list changes nothing"
 },
 "linesOf: `pieces.dropLast.map stripCr ++ (match pieces.getLast? with` becomes `pieces.dropLast.map stripCr ++ [] ++ (match pieces.getLast? with`": {
  "theorems": [],
  "note": "equivalent edit: appending the empty list changes nothing"
 },
 "substanceToMaterial: `| none => 7 / 10` becomes `| none => 7 / 11`": {
  "theorems": [
   "C82_violation_visible_inverted"
  ],
  "note": "the visible branch is never reached through Scene::from_simple_model; a theorem about it was added"
 },
 "headerNumber: `| _ => none` becomes `| _ => some default`": {
  "theorems": [
   "C34_bad_header_is_error_partial"
  ],
  "note": "what a header announces is now specified without the model's reader (Spec/MatrixFiles.lean), and headers that do not announce sizes properly are proved to be errors"
 },
 "getModifierIndex: `| v :: vs, i => if v = item then some i else getModifierIndex item vs (i + 1)` becomes `| v :: vs, i => if v ≠ item then some i else getModifierIndex item vs (i + 1)`": {
  "theorems": [],
  "claim": "none",
  "note": "equivalent for every reachable state: the reader's list of modifiers is private and never written, so the search is always over the empty list"
 },
 "isWhite: `(9 ≤ n && n ≤ 13) || n == 32 || n == 0x85 || n == 0xA0 || n == 0x1680 || (0x2000 ≤ n && n ≤ 0x200A) || n == 0x2028 || n == 0x2029 || n == 0x202F || n == 0x205F || n == 0x3000` becomes `(9 ≤ n && n ≤ 13) || n == 32 || n == 0x85 && n == 0xA0 || n == 0x1680 || (0x2000 ≤ n && n ≤ 0x200A) || n == 0x2028 || n == 0x2029 || n == 0x202F || n == 0x205F || n == 0x3000`": {
  "theorems": [
   "C88_white_space"
  ],
  "note": "the definition of white space was shared by the specification; now pinned by its own theorem"
 },
 "isWhite: `(9 ≤ n && n ≤ 13) || n == 32 || n == 0x85 || n == 0xA0 || n == 0x1680 || (0x2000 ≤ n && n ≤ 0x200A) || n == 0x2028 || n == 0x2029 || n == 0x202F || n == 0x205F || n == 0x3000` becomes `(9 < n && n ≤ 13) || n == 32 || n == 0x85 || n == 0xA0 || n == 0x1680 || (0x2000 ≤ n && n ≤ 0x200A) || n == 0x2028 || n == 0x2029 || n == 0x202F || n == 0x205F || n == 0x3000`": {
  "theorems": [
   "C88_white_space"
  ],
  "note": "the definition of white space was shared by the specification; now pinned by its own theorem"
 },
 "mapLogColour: `| .nan => if x ≤ min then Res.ofOption map.head? else .panic` becomes `| .nan => if ¬ x ≤ min then Res.ofOption map.head? else .panic`": {
  "theorems": [
   "C30_violation_log_limit"
  ],
  "note": "nothing was said about a negative upper limit; the new theorem says what happens for every picture"
 },
 "ln: `l ++ [10]` becomes `l ++ [] ++ [10]`": {
  "theorems": [],
  "claim": "none",
  "note": "equivalent: the same list"
 },
 "g34": {
  "theorems": [],
  "claim": "none",
  "note": "equivalent: the name is only looked up in the reader's list of modifiers, which is never written and so always empty"
 },
 "g45": {
  "theorems": [],
  "claim": "none",
  "note": "equivalent: its only caller passes the same material for the front and the back"
 },
 "i17": {
  "theorems": [
   "C137_fails"
  ],
  "note": "what the programs do with images of different sizes was not stated for the floating-point model; it is now"
 },
 "i18": {
  "theorems": [
   "C137_fails"
  ],
  "note": "what the programs do with unreadable files was not stated for the floating-point model; it is now"
 },
 "i3": {
  "theorems": [],
  "note": "the build of Props/ProgramsFloat.lean ran out of memory while it elaborated, presumably at readFrom_exact, which compares the sides; no error message names a theorem"
 }
}