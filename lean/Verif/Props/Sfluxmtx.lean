import Verif.Model.Sfluxmtx
import Verif.Props.DcSafety
import Verif.Props.ColourMatrixExamples
import Verif.Props.SimpleModel

/-!
# C95: `sfluxmtx` from its input to its output
-/

set_option linter.unusedSectionVars false
namespace Rendering

open Classical

variable (parse : List Char → Option ℝ) (decode : List UInt8 → Option (List Char)) (fmt : NumFmt ℝ) (w : World) (dc : DcFactory)

/-- **C95, the file.** If the input is text and `sfluxmtx` writes a file, then every line of the input is a sensor, the file reads back as a colour matrix with one row per line, in order, and one column per sky patch, and the entry of line `i` and patch `j` is the
sum of what the samples of sensor `i` contribute to patch `j`, rounded to five decimals. -/
theorem C95_row_per_line (hp : NumberParser parse) (round5 : ℝ → ℝ) (hf : fmt.FixedFaithful round5) (fuel : Nat) (input : List UInt8) (hd : ∀ l ∈ rawLines input, ∃ t, decode l = some t) (hlines : (rawLines input).length < 2 ^ 64) (hbins : dc.nBins < 2 ^ 64)
    (primary : Nat → Rng) (secondary : Nat → Nat → Rng) (content : List UInt8) (h : sfluxmtx parse decode fmt w dc fuel input primary secondary = some (.ok content)) :
    ∃ (sensors : List (Ray3 ℝ)) (m : Mat (Spectrum ℝ)), List.Forall₂ (fun line r => ∃ t, decode line = some t ∧ SensorLine parse Vec3.normalized t r) (rawLines input) sensors ∧
      readColourMatrix fmt content = .ok (some m) ∧ m.nrows = (rawLines input).length ∧ m.ncols = dc.nBins ∧
      ∀ (i : Nat) (sensor : Ray3 ℝ), sensors[i]? = some sensor → ∃ cs : List (Mat (Spectrum ℝ)), cs.length = dc.nAmbientSamples ∧
        (∀ k < dc.nAmbientSamples, ∃ c, cs[k]? = some c ∧ dcTask w dc fuel sensor (primary i) k (secondary i k) = .ok c) ∧
        ∀ j < dc.nBins, m.get? i j = some (roundSpectrum round5 (spectrumSum (column cs j))) := by
  unfold sfluxmtx at h
  obtain ⟨rays, hrays, h⟩ := Option.map_eq_some_iff.1 h
  obtain ⟨M, hM, h⟩ := Res.bind_eq_ok h
  cases h
  have hfor := (C89_one_ray_per_line_partial parse hp Vec3.normalized decode input hd rays).1 hrays
  obtain ⟨m1, m2, m3, m4⟩ := C58_rows w dc fuel rays primary secondary M hM
  obtain ⟨m', k1, _, k3, k4, k5⟩ := C32_colour_matrix_roundtrip fmt round5 hf M m1 (by rw [m2, ← hfor.length_eq]; exact hlines) (by rw [m3]; exact hbins)
  refine ⟨rays, m', hfor, k1, by rw [k3, m2, hfor.length_eq], by rw [k4, m3], ?_⟩
  intro i sensor hs
  obtain ⟨cs, c1, c2, c3⟩ := m4 i sensor hs
  exact ⟨cs, c1, c2, fun j hj => k5 i j _ (c3 j hj)⟩

/-- **C95, bad input.** If some line of the input is not six numbers, `sfluxmtx` stops with an error and writes nothing; it never gets as far as computing. -/
theorem C95_bad_line (hp : NumberParser parse) (fuel : Nat) (input : List UInt8) (hd : ∀ l ∈ rawLines input, ∃ t, decode l = some t) (primary : Nat → Rng) (secondary : Nat → Nat → Rng)
    (hbad : ∃ l ∈ rawLines input, ∀ t r, decode l = some t → ¬ SensorLine parse Vec3.normalized t r) : sfluxmtx parse decode fmt w dc fuel input primary secondary = none := by
  unfold sfluxmtx
  cases hs : sensorsOf parse Vec3.normalized decode input with
  | none => rfl
  | some rays =>
    have hfor := (C89_one_ray_per_line_partial parse hp Vec3.normalized decode input hd rays).1 hs
    obtain ⟨l, hl, hno⟩ := hbad
    obtain ⟨i, hi, rfl⟩ := List.mem_iff_getElem.1 hl
    obtain ⟨r, _, t, ht, hr⟩ := (forall₂_getElem? hfor i).1 _ (List.getElem?_eq_getElem hi)
    exact absurd hr (hno t r ht)

/-- Sensors read from lines whose directions are not `0 0 0` face a direction of length one. -/
theorem sensors_unit (hp : NumberParser parse) (input : List UInt8) (hd : ∀ l ∈ rawLines input, ∃ t, decode l = some t)
    (hdir : ∀ l ∈ rawLines input, ∀ t px py pz dx dy dz, decode l = some t → Words [px, py, pz, dx, dy, dz] t → ¬ (parse dx = some 0 ∧ parse dy = some 0 ∧ parse dz = some 0)) (rays : List (Ray3 ℝ))
    (hrays : sensorsOf parse Vec3.normalized decode input = some rays) : ∀ r ∈ rays, Norm r.direction = 1 := by
  have hfor := (C89_one_ray_per_line_partial parse hp Vec3.normalized decode input hd rays).1 hrays
  intro r hm
  obtain ⟨i, hi, rfl⟩ := List.mem_iff_getElem.1 hm
  have hil : i < (rawLines input).length := by rw [hfor.length_eq]; exact hi
  obtain ⟨r', hr', t, ht, px, py, pz, dx, dy, dz, d, hw, _, _, _, e1, e2, e3, hdn⟩ := (forall₂_getElem? hfor i).1 _ (List.getElem?_eq_getElem hil)
  rw [List.getElem?_eq_getElem hi] at hr'
  rw [Option.some.inj hr', hdn]
  apply normalized_unit
  by_contra hneg
  have hz : d.x = 0 ∧ d.y = 0 ∧ d.z = 0 := by
    unfold Dot at hneg
    refine ⟨?_, ?_, ?_⟩ <;> nlinarith [sq_nonneg d.x, sq_nonneg d.y, sq_nonneg d.z]
  exact hdir _ (List.getElem_mem hil) t px py pz dx dy dz ht hw ⟨by rw [e1, hz.1], by rw [e2, hz.2.1], by rw [e3, hz.2.2]⟩

/-- **C94 (partial), no crash in `sfluxmtx`.** In a sound scene, and if no line gives the direction `0 0 0`, `sfluxmtx` does not panic. (Missing: glossy materials, as in C92.) -/
theorem C94_sfluxmtx_never_panics_partial {s : Scene ℝ} (hS : w.Sound s) (hbin : ∀ d, dc.dirToBin d < dc.nBins) (hD : dc.maxDepth < 15) (hp : NumberParser parse) (fuel : Nat) (input : List UInt8) (hd : ∀ l ∈ rawLines input, ∃ t, decode l = some t)
    (hdir : ∀ l ∈ rawLines input, ∀ t px py pz dx dy dz, decode l = some t → Words [px, py, pz, dx, dy, dz] t → ¬ (parse dx = some 0 ∧ parse dy = some 0 ∧ parse dz = some 0))
    (primary : Nat → Rng) (secondary : Nat → Nat → Rng) (hr : ∀ i k, (secondary i k).Valid) : sfluxmtx parse decode fmt w dc fuel input primary secondary ≠ some .panic := by
  unfold sfluxmtx
  intro h
  obtain ⟨rays, hrays, h⟩ := Option.map_eq_some_iff.1 h
  have hunit := sensors_unit parse decode hp input hd hdir rays hrays
  cases hc : calcDc w dc fuel rays primary secondary with
  | ok m => rw [hc] at h; cases h
  | panic => exact C94_never_panics_partial hS hbin hD fuel rays hunit primary secondary hr hc
  | diverge => rw [hc] at h; cases h

/-- **C95, nothing in the way.** With an empty scene, every entry of the file is the number of samples of its sensor that point to its patch, times `π / n`, rounded to five decimals. -/
theorem C95_empty_scene {s : Scene ℝ} (hR : w.Renders s) (hempty : s.triangles = []) (hext : w.ext.PerpSpec) (hbin : ∀ d, Norm d = 1 → dc.dirToBin d < dc.nBins) (hpos : 0 < dc.nAmbientSamples) (round5 : ℝ → ℝ) (hf : fmt.FixedFaithful round5) (fuel : Nat)
    (input : List UInt8) (sensors : List (Ray3 ℝ)) (hs : sensorsOf parse Vec3.normalized decode input = some sensors) (hn : ∀ r ∈ sensors, Norm r.direction = 1) (hlines : sensors.length < 2 ^ 64) (hbins : dc.nBins < 2 ^ 64)
    (primary : Nat → Rng) (secondary : Nat → Nat → Rng) (hp : ∀ i, (primary i).Valid) :
    ∃ content m, sfluxmtx parse decode fmt w dc (fuel + 1) input primary secondary = some (.ok content) ∧ readColourMatrix fmt content = .ok (some m) ∧ m.nrows = sensors.length ∧ m.ncols = dc.nBins ∧
      ∀ (i : Nat) (sensor : Ray3 ℝ), sensors[i]? = some sensor → ∃ dirs : Nat → Vec3 ℝ, (∀ k < dc.nAmbientSamples, Norm (dirs k) = 1 ∧ 0 < Dot (dirs k) sensor.direction) ∧
        ∀ j < dc.nBins, m.get? i j = some (Spectrum.gray (round5 (((List.range dc.nAmbientSamples).filter fun k => dc.dirToBin (dirs k) = j).length * (Real.pi / dc.nAmbientSamples)))) := by
  obtain ⟨M, hM, h1, h2, _⟩ := C59_empty_scene w s hR hempty hext dc hbin hpos sensors hn primary secondary hp fuel
  obtain ⟨m1, _, _, _⟩ := C58_rows w dc (fuel + 1) sensors primary secondary M hM
  obtain ⟨m', k1, _, k3, k4, k5⟩ := C32_colour_matrix_roundtrip fmt round5 hf M m1 (by rw [h1]; exact hlines) (by rw [h2]; exact hbins)
  refine ⟨_, m', by unfold sfluxmtx; rw [hs, Option.map_some, hM, Res.bind_ok], k1, by rw [k3, h1], by rw [k4, h2], ?_⟩
  intro i sensor hi
  have hopen : OpenSky s sensor := by
    intro d _ _ tri ht
    rw [hempty] at ht
    simp at ht
  obtain ⟨dirs, d1, d2, _⟩ := C59_open_sensor_collects_pi w s hR hext dc hbin hpos sensors primary secondary hp fuel M hM i sensor hi (hn sensor (List.mem_of_getElem? hi)) hopen
  exact ⟨dirs, d1, fun j hj => k5 i j _ (d2 j hj)⟩

/-- **C82, in the programs.** `spict` and `sfluxmtx` advertise `.spl` models; whatever the file holds, they end in a panic. -/
theorem C82_violation_programs (env : RadEnv ℝ) (senv : SimpleEnv ℝ) (parseSpl : List UInt8 → Option (SimpleModel ℝ)) (name : List Char) (content : List UInt8) : loadScene env senv parseSpl (name ++ ".spl".toList) content = .panic := by
  unfold loadScene
  have h1 : ¬ ".rad".toList <:+ name ++ ".spl".toList := by
    intro h
    have := List.suffix_of_suffix_length_le h (List.suffix_append name ".spl".toList) (by decide)
    revert this
    decide
  rw [if_neg h1, if_pos (List.suffix_append ..)]
  cases parseSpl content with
  | none => rfl
  | some m => rw [Res.ofOption_some, Res.bind_ok, C82_violation]; rfl

/-! ### Examples -/

namespace SfluxmtxExamples

/-- Real numbers rounded to five decimals and printed as rationals. -/
noncomputable def fmtReal : NumFmt ℝ where
  display := fun x => ratFmt.display ((round (x * 100000) : ℤ) / 100000)
  fixed5 := fun x => ratFmt.fixed5 ((round (x * 100000) : ℤ) / 100000)
  parse := fun t => (ratFmt.parse t).map fun q : ℚ => (q : ℝ)

noncomputable def round5Real (x : ℝ) : ℝ := ((round5 (((round (x * 100000) : ℤ) : ℚ) / 100000) : ℚ) : ℝ)

theorem fmtReal_fixed : fmtReal.FixedFaithful round5Real := by
  intro x
  obtain ⟨h1, h2⟩ := ratFmt_fixed (((round (x * 100000) : ℤ) : ℚ) / 100000)
  exact ⟨h1, by simp only [fmtReal, h2]; rfl⟩

/-- Unary numbers once more, as reals. -/
def parseReal (t : List Char) : Option ℝ := (ProgramExamples.parse t).map fun n : Nat => (n : ℝ)

theorem parserReal : NumberParser parseReal := by
  intro t a h
  obtain ⟨n, hn, _⟩ := Option.map_eq_some_iff.1 h
  exact ProgramExamples.parser t n hn

def twoSensors : List UInt8 := bytes "I I I I I II\nII I I I I III\n"

theorem twoSensors_read : sensorsOf parseReal Vec3.normalized ProgramExamples.decode twoSensors = some [⟨⟨0, 0, 0⟩, (⟨0, 0, 1⟩ : Vec3 ℝ).normalized⟩, ⟨⟨1, 0, 0⟩, (⟨0, 0, 2⟩ : Vec3 ℝ).normalized⟩] := by
  have h1 : rawLines twoSensors = [bytes "I I I I I II\n", bytes "II I I I I III\n"] := by decide +kernel
  have h2 : ProgramExamples.decode (bytes "I I I I I II\n") = some "I I I I I II\n".toList := by decide +kernel
  have h3 : ProgramExamples.decode (bytes "II I I I I III\n") = some "II I I I I III\n".toList := by decide +kernel
  have s1 : splitSpaces (trimText "I I I I I II\n".toList) = [['I'], ['I'], ['I'], ['I'], ['I'], ['I', 'I']] := by decide +kernel
  have s2 : splitSpaces (trimText "II I I I I III\n".toList) = [['I', 'I'], ['I'], ['I'], ['I'], ['I'], ['I', 'I', 'I']] := by decide +kernel
  have p1 : parseReal ['I'] = some 0 := by simp [parseReal, ProgramExamples.parse]
  have p2 : parseReal ['I', 'I'] = some 1 := by simp [parseReal, ProgramExamples.parse]
  have p3 : parseReal ['I', 'I', 'I'] = some 2 := by
    have h : ProgramExamples.parse ['I', 'I', 'I'] = some 2 := by decide
    rw [parseReal, h]
    norm_num
  rw [sensorsOf, h1]
  simp only [readSensors, h2, h3, sensorOfLine, s1, s2, p1, p2, p3, Option.bind_some, List.nil_append, List.cons_append]

/-- C95: two sensors under an open sky; their file has two rows. -/
example (rng : Rng) (hr : rng.Valid) : ∃ (w : World) (content : List UInt8) (m : Mat (Spectrum ℝ)),
    sfluxmtx parseReal ProgramExamples.decode fmtReal w { nBins := 145, dirToBin := fun _ => 7, maxDepth := 2, nAmbientSamples := 100, limitWeight := 0, countSpecularBounce := 0 } 1 twoSensors (fun _ => rng) (fun _ _ => rng) = some (.ok content) ∧
    readColourMatrix fmtReal content = .ok (some m) ∧ m.nrows = 2 ∧ m.ncols = 145 := by
  obtain ⟨ext, hext⟩ := perpSpec_exists
  obtain ⟨w, hR, rfl, _⟩ := renders_exists ({} : Scene ℝ) ⟨rfl, rfl, rfl⟩ (fits_of_small _ (by simp)) ext ⟨fun _ _ => false, fun _ _ => false⟩ none none
  obtain ⟨content, m, h1, h2, h3, h4, _⟩ := C95_empty_scene parseReal ProgramExamples.decode fmtReal w { nBins := 145, dirToBin := fun _ => 7, maxDepth := 2, nAmbientSamples := 100, limitWeight := 0, countSpecularBounce := 0 } hR rfl hext
    (fun _ _ => by norm_num) (by norm_num) round5Real fmtReal_fixed 0 twoSensors _ twoSensors_read (by
      intro r hm
      simp only [List.mem_cons, List.not_mem_nil, or_false] at hm
      rcases hm with rfl | rfl <;> exact normalized_unit (by norm_num [Dot])) (by norm_num) (by norm_num) (fun _ => rng) (fun _ _ => rng) (fun _ => hr)
  exact ⟨w, content, m, h1, h2, h3, h4⟩

/-- C94, C95: the hypotheses on the scene are met by the sunny floor. -/
example : ∃ (s : Scene ℝ) (w : World), w.Sound s ∧ w.Physical s ∧ s.triangles ≠ [] := by
  let s0 : Scene ℝ := { triangles := [plane 0], normals := (meshTriangle realEnv (plane 0)).2, front := [0], back := [0], materials := [.plastic (Spectrum.gray (1 / 2)) 0 0, .light (Spectrum.gray 5)],
                        distantLights := [{ front := 1, back := 1, primitive := .source ⟨0, 0, 1⟩ 1 }] }
  have hrun : Scene.run realEnv {} sunnyFloor = .ok s0 := rfl
  obtain ⟨ext, hext⟩ := perpSpec_exists
  obtain ⟨w, hR, rfl, _, hsky, hcol⟩ := renders_exists s0 ⟨rfl, rfl, rfl⟩ (fits_of_small _ (by simp [s0])) ext ⟨fun _ _ => false, fun _ _ => false⟩ none none
  refine ⟨s0, w, ?_, ?_, by simp [s0]⟩
  · exact sound_of_run realEnv refEnv_lawful (fun _ _ => rfl) sunnyFloor (fun op h => (sunnyFloor_good op h).1) s0 hrun w hR hext
  · refine physical_of_run realEnv refEnv_lawful (fun _ _ => rfl) rfl sunnyFloor (fun op h => (sunnyFloor_good op h).2) s0 hrun w ?_ ?_
    · intro sky h d
      rw [hsky] at h
      cases h
    · intro c h
      rw [hcol] at h
      cases h

end SfluxmtxExamples

end Rendering
