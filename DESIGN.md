# Formal model of germolinal/simple - design

The sources in `/repo` are read as text.  The model lives in `lean/Verif/`, one
directory per crate.  Each directory contains

* `Model.lean` or `<Topic>Model.lean` – definitions transcribed from the Rust code, each with a comment
  citing the file and lines it models;
* `Spec.lean` (when needed) – a small specification that does not use the model;
* `Lemmas.lean` – auxiliary lemmas;
* `Props.lean` or `<Topic>Props.lean` – the property theorems (named `Cxx_...`), each followed by an
  `example` that meets its hypotheses.

## Trusted base

* Lean 4.33.0's kernel, and Mathlib's definitions used in the statements.
* Axioms: only `propext`, `Classical.choice`, `Quot.sound`.  `AXIOMS.md` lists,
  for every theorem named in `MANIFEST.json`, which of them it depends on, as
  printed by Lean.  No axiom is added, no `sorry`, `native_decide` or
  `bv_decide` is used.
* The transcription from Rust into Lean, which was made by reading.
* The conventions below.

### Modelling conventions

* **Float.** `Float` (f64/f32) is modelled by exact numbers: `ℚ` where the
  function is rational and computable, a generic linearly ordered field (or a
  commutative ring) where the theorem is algebraic, `ℝ` where square roots or
  trigonometric functions occur.  Rounding, overflow, and NaN are *not* modelled,
  except where a property is about them (the ray/box test, C43, has a model with
  an explicit `NaN`/`±inf`).  Division by zero: every theorem states the
  denominators to be non-zero or the model guards them explicitly.
* **Integers.** `usize` is `Nat` (no overflow) unless the code casts to a smaller
  type or relies on wrap-around; then the cast is modelled (`% 256` for `as u8`,
  `2^64` wrap for `as usize` of a negative number).
* **Panics** are an explicit error value (`none` or `Except.error`).
* **`&mut self`** becomes a function which returns the new value.
* **Loops** become folds or structural recursion, or a fuelled recursion when
  termination is itself the question.

## Plan per property

| id | what is modelled | how it is proved |
|----|------------------|------------------|
| C01 | `Date`, `day_of_year`, `from_day_of_year` over ℚ hours | case analysis on month, floor arithmetic |
| C02 | `Ord for Date`, `Sub` | lexicographic order vs. cumulative month table |
| C03 | `add_days` with u8 cast, `add_hours`, `add_minutes`, `add_seconds` | strong induction on days; counterexample for `day + n ≥ 256`, partial otherwise |
| C04 | `Period::new`, `next` | invariant on the k-th call; non-termination witness; partial |
| C05 | `Period::contains` | order reasoning against a cyclic-interval spec |
| C06 | `interpolate` | arithmetic over C01 |
| C07 | `GenericMatrix` as (nrows, ncols, list) | injectivity of row-major index; refinement to functions |
| C08 | `prod_into`, `add_into`, ... | sums over lists vs `Finset.sum` spec |
| C09 | `prod_n_diag_into` | terms outside band vanish |
| C10 | `NDiagGenericMatrix` packed layout | monotone offsets ⇒ injective index; witness that `new` ignores its argument |
| C11 | `mut_n_diag_gaussian` over a field | row-operation invariants: solution set preserved, band structure |
| C12 | `gauss_seidel` | unfold loop; fixed point |
| C13 | `Polynomial` | induction on pushes |
| C14 | `ProgressBar::tic` as atomic steps of an interleaving semantics | invariant; witness that overlapping ticks exceed 100 |
| C15, C16 | `SimulationStateHeader` | invariant over op lists |
| C17, C18 | `Model` additions | refinement to lists; witness for non-atomic `add_fenestration` |
| C19 | `SimpleScanner` over lists of chars | printer/parser round trip; non-termination witness |
| C20 | `get_hvac_setpoints` | fold lemma |
| C21 | `get_orientation` | case analysis over ordered field |
| C22 | CSV header/row writer | count separators; witness for unknown outputs; partial |
| C23 | control functions | decision logic |
| C24 | `Glazing` | field algebra, induction over layers |
| C25–C28 | `Discretization` | induction over layers/elements |
| C29 | `rk4`, the march of a chunk with mass and that of all the chunks of a surface | matrix/vector algebra over a module; induction over the chunks, whose equations only depend on the nodes next to them |
| C30 | zone temperature | convexity of exponential |
| C31, C32 | `convection.rs`, `gas.rs` correlations | case analysis; witness at Ra = 5e4; the data of the gases against kinetic theory (heat capacity of ideal gases, Prandtl number) |
| C33 | `eplus.rs` | monotonicity, in the height and shelter of the building too |
| C34 | `find_weather_line`, `interpolate` | binary search postcondition; witness for the end-of-year bug |
| C35 | EPW scanner | list splitting; witness for `.max(360.)` |
| C36, C37 | Reinhart sky | arithmetic for all mf; telescoping sums |
| C38 | bins | case analysis |
| C39 | sun distribution over four bins, and the normalised sky | weighted sums; the positive part of the sky for any relative radiance; accumulation witness |
| C40, C41 | `Transform` | ring identities; composition counterexample |
| C42, C43 | `BBox3D` | order reasoning; extended reals for the slab test |
| C44, C45 | triangle intersection/classification | field identities; witness for missing `u+v ≤ 1` |
| C46 | segments | field identities |
| C47, C48 | loops | vector algebra over lists; witness for `close` |
| C49 | polygons | list invariants; witness for hole index arithmetic |
| C50, C51 | triangulation | telescoping vector area |
| C52, C53 | BVH build, flatten, traversal | structural induction; fuelled traversal |
| C54, C55 | RGBE | floor arithmetic |
| C56 | colour map | ordered field |
| C57 | samplers | real analysis |
| C58 | view factors | counting |
| C59 | quadratic | real algebra |
| C60 | `get_space_sizes` over abstract geometry | loop invariant against a sum over the surfaces |
| C61 | histories of `add_*` with the state header | invariant by induction over calls |
| C62 | `add_fenestration` | case analysis |
| C63 | the conversion of wind direction in `epw_weather.rs` and in `HeatModel::march` | violation by witness |
| C64 | `vector3d.rs`, `point3d.rs` over ℝ | algebra, Cauchy–Schwarz |
| C65 | `diffuse_fraction` over ℝ | bounds of polynomials on each piece |
| C66 | `sun_position`, `sunrise_sunset`, `hour_angle`, `declination` over ℝ | trigonometry; the series for the declination and the equation of time against closed formulas |
| C67 | `Triangle3D::new` and the measures of `triangle3d.rs` over ℝ | algebra, Heron's identity |
| C68 | `test_point` over ℝ | induction over the sides; for convex loops, only the side that the ray leaves through is counted, and for all loops the count is that of the sides met, whose parity is the same for all rays (each vertex is in the angle between two rays or not, and around the loop this changes an even number of times); witness for the short ray |
| C69 | `f64` bit by bit (`Verif/Float/F64Model.lean`), `ApproxFloat` over it | rounding brackets the real number between the neighbours of the result; corners of boxes; witnesses for the operations that do not contain |
| C70 | `sphere3d.rs` over ℝ (`Verif/Geometry/ShapeModel.lean`), without interval errors | roots of the quadratic are the numbers of the points of the ray on the sphere; the first one that is not clipped is the first hit; poles as counterexamples |
| C71 | `cylinder3d.rs` over ℝ | as C70; the transformation of a cylinder between two points computed in general |
| C72 | `plane3d.rs`, `disk3d.rs` over ℝ | linear equation; the axes of the disk from the projection of the zero of the angle |
| C73 | `primitive_samplers.rs`, `primitive.rs`, `distant_source3d.rs` over ℝ, random numbers as arguments (`Verif/Render/LightModel.lean`) | solid angle of a cone as an integral; tangent cone of a sphere; witnesses for triangles |
| C74 | the specular materials over ℝ, random numbers as arguments (`Verif/Render/MaterialModel.lean`) | Snell's law as an equation of the parts along the surface; balance of a pane of glass as an identity |
| C75 | the diffuse material and the Ward model over ℝ; the sampling loop over a list of random numbers | integrals over the hemisphere in spherical coordinates; a lower bound with a known primitive for the energy of a metal |
| C76 | `ray_tracer.rs` over a `World` that answers where a ray hits, what direct light it gets, how it is scattered and which random number is drawn at each depth (`Verif/Render/TracerModel.lean`); the shadow-ray loop with fuel | induction over the remaining depth; the random end of a path as an integral; furnace test for any scene |
| C77 | `daylight_coefficients.rs` over a `Course` per primary ray, as C76 (`Verif/Render/DaylightModel.lean`), with the matrices and skies of C07 and C36 | every entry as a sum over the ends of the paths; the rows by the weights of the cosine sampling (C57) |
| C78 | `camera/pinhole.rs`, `camera/view.rs` over ℝ; the loop of `render_into` with the division of the index rounded as `f64` (`Verif/Render/CameraModel.lean`) | orthonormal frame by vector identities; the pixel of an index by the error bound of the rounding; non-square films as counterexamples |
| C79 | the texts as lists of bytes, `str::lines` and `split_ascii_whitespace` included; printing and parsing of numbers as a parameter, and with five decimals as an instance (`Verif/Render/MatrixFileModel.lean`) | induction over rows and columns with C07; inversion of the reader for any text |
| C80 | `mesh_triangle` and `mesh_sphere` over ℝ, with the icosahedron and the five rounds of splitting (`Verif/Render/MeshModel.lean`) | invariants of a round of splitting: on the sphere, facing away, closed, and covering every direction from the centre; the initial twenty triangles by calculation |
| C81 | `scene.rs` `push_material`, `push_object`, `from_obj.rs` after the text has been parsed (`Verif/Render/StageModel.lean`) | induction over the history; the split of a quadrilateral by barycentric coordinates; large faces and cylinders as counterexamples |
| C82 | `from_radiance.rs` in full, byte by byte; UTF-8 validity and number parsing are parameters (`Verif/Render/RadianceModel.lean`) | simulation of the reader by one over the list of words; then both directions between words and entries; scenes by C81; comments and redefined names as counterexamples |
| C83 | `from_simple_model.rs` in full for solar radiation, over the triangulation of C50 and the scenes of C81 (`Verif/Render/FromModelModel.lean`) | invariant over the surfaces and the fenestrations, and an exact condition for success; the glass formula against the transmittance of C74, with an error bound; duplicates, the back face, very clear and very faint glass and visible light as counterexamples |
| C84 | `Verif/Render/MaterialModel.lean`: `hitFrame`, `toLocal`, `toWorld`; real numbers, normalisation panics as in the code | Orthonormality from the Lagrange identity; both changes of coordinates inverse because a square matrix with orthonormal rows has orthonormal columns (C84_frame, C84_coordinates) |
| C85 | `march_nomass` as a loop over the temperatures, given the border conditions, over an ordered field; the solver of C11 | maximum principle of the chain bounds the response to radiation in the mean-change norm; the change shrinks by 3/4 each turn, so the loop ends in 58 turns within 0.015 degrees of the balance; negation where radiation exceeds three times convection |
| C86 | `calc_border_conditions` and the temperatures that `march` hands to it, over the reals; the convection of C31 | cases over boundaries; negations with a roof, air at a given temperature, and wind on the back |
| C87 | a step of the heat module: surfaces (border conditions, chunks without and with mass), what is written to the state, zones; memory as it is allocated | invariant over steps from C29, C30 and C85; negations for negative sun on the back and radiation to rooms |
| C88 | the two loops of `ThermalSurfaceData::new` over node lists, on top of the optics of C24 | the front loop writes one block after the other (induction over panes); the back loop is the front loop on the reversed construction; negation for layers whose sides differ |
| C89 | the period from the weather's dates, the loop over `Period::next` with arbitrary control and physics, and the sub-steps of the heat model | induction over turns with the closed form of the k-th date of C04; negations for the first and last records, and for a single record |
| C90 | the add-state methods, the constructors of the three models as loops over objects that thread the header, and generated getters and setters | a loop lemma with a postcondition stable under later additions; a specification table from quantities to elements, proved injective |
| C91 | `stringify` for all elements with names as lists of characters, the JSON text of requests with escapes, and the search of one in the other | entries split at the first quotation mark, nodes at the last hyphen; decimal numbers are injective; negations with hyphens, quotation marks and control characters |
| C92 | scripts as trees of calls with error branches, the lookup functions, the table of properties of each type, getters and setters over the state | induction over scripts; negations for lookups by number with no objects, and for research mode, which nothing reads |
| C93 | the sections of the JSON object and the items of the text, with the order of writing and reading; loops and polygons as arrays of coordinates | induction over the lists of objects on top of the models of the building (C20) and the scanner (C19), and over the history of pushes; negations for the text, unchecked surfaces, the order of sections, unknown identifiers, loops that lose vertices and arrays that panic |
| C94 | the vertices as lists, with the cached normal, area and closed mark; tolerances as in the code | lists compared with rotations and reversals; the result of projecting computed; negations for repeated vertices, chains of points that snap further than the tolerance, and areas and normals that stay as they were |
| C95 | the crossings of the edges in order, the two lists of points that are pushed, pushing and closing them as in C47/C48, and the fold over the segments | the lists computed to be the two sides of a chord; their area vectors add up by telescoping; the result of pushing is a sublist; negations for a notch and for segments that end on the boundary |
| C96 | the search of the first vertex, the walk with its limit of 99 rounds over vertices of both loops, the closing; distances compared by squares | invariant of the walk: the last point is within a millimetre of the edge that is followed; crossings are on both edges; no panics by cases; negations evaluated exactly for crossing bars, a U shape, a side that leads back to the first vertex, and covered loops |
| C97 | every operation followed by a rounding to 53 bits (no overflow or underflow); the same functions with the identity as rounding are exact arithmetic | each rounding multiplies by a factor within 2^-53 of one; products of n factors bounded by Bernoulli; lower bound of what is reported in the same way; the moved origin by the dot product with the direction; negations evaluated in the kernel or for every translation |
| C98 | the functions over the reals, with the sun given by the vertical component of its direction; NaN as none where zero is divided by zero; the tables of C38 | bounds of the polynomials and of exponentials and powers, over C38 (every coefficient is positive) and C66 (when there is no sun position); induction over the lines; the radiation outside the atmosphere against the inverse of the square of the distance; negations for NaN at noon, light under the horizon, and a beam above the global radiation at every place and day |
| C99 | the formula over the reals, after the conversion of the lines of C35 | monotone cubic, bounds of the logarithm; negations: the fraction taken as tenths, missing values taken as radiation |
| C100 | the functions over the reals with the tables of the code; the normalisation over the bins of C36 and C39 | bounds of the parameters of the category, exponentials and powers; the bin at the zenith keeps the sky from being dark; the negation with a sun ten degrees from the vertical, for every day |
| C101 | both functions up to the encoder over the reals, with logarithms that may be NaN or minus infinity; the encoder is not modelled | the search is the greatest of the luminances; the bytes by induction over the pixels from C56; the negations for dim images, negative luminances and sides above 65535 |
| C102 | the function over the models of the sun (C66), the sky (C100), the efficacy (C38), distant sources (C73) and scenes (C81) | composition of their theorems; bounds of the solid angle of the sun; the negations with bounds of exponentials, for every day |
| C103 | construction from a path, and a step over the state with the places given by C90 and the products of C08; ray tracing and the sky vector are arguments | each loop is a list of writes to different cells that read only their own cell and nodes; end to end from C90 and C08; the negations for subdivisions above 8, buildings without surfaces and data of another building |
| C104 | `march` on the flat state with the places of C90 and the memory; calculations of one surface (C87) and of the zones as they are | refinement: every step on the state is a list of writes to different places, equal to the step of the parts of C87; induction over steps; the hypotheses about places follow from C90; the negation: nodes inside a surface are taken from the memory, not from the state |
| C105 | the three models one after the other on one state, and the loop with the controller | refinement of the step to the parts (C103, C33, C104) with all frames; invariants by induction over the steps |
| C106 | the label as text, over rational hours and bit by bit over f64 | parsing specification, uniqueness by splitting at the separators, floor algebra for the minutes; C04 for the rows |
| C107 | both conversions over rational hours, without the year | closed form of the way there and back for every time of the day |
| C108 | the calls to write, one by one, against a writer that is any function of the call and its text | induction over the calls; prefix and sublist invariants; lines of the report by induction |
| C109 | main over a file system as a function of paths, with everything it calls as any function | case analysis of the options; frames over the other files |
| C110 | the calculation as a function of the sampled points, random numbers and what rays meet, on top of the models of daylight coefficients (C77), view factors (C58) and matrices (C07) | induction over the list of surfaces for the rows that are put below one another; the result meets the hypotheses of C103 |
| C111 | the four commands as functions from files to files and an exit code, on top of the models of cameras (C78), images (C55), image files, false colours and daylight coefficients (C77) | the contents of the file written are read back and compared, pixel by pixel, with a specification that says which ray goes where; negations for two spaces between numbers, truncated images and the sensors that are ignored |
| C112 | a scene with its acceleration structure as a state, and additions, builds and rebuilds as operations on it, on top of the models of C52 and C53 | induction over the history for the triangles and what belongs to them; the negation for objects that are added after the structure was built: rays go through them, whatever they are |
| C113 | the record of an intersection with the fields for textures, as each shape fills it, over the real numbers | the derivatives of the usual parametrisations of the shapes, from the calculus library, compared with what is told; the equations for the derivatives of the normal reduce to the curvature of the sphere and of the cylinder; negations for triangles, whose second coordinate is lost, and disks, whose tangents are not velocities |
| C114 | additions and sortings as operations on the list of records and the place, on top of the model of C34; schedules as functions of the date | induction over the history for the records, permutations for the order, C34 for the moments; negations for histories that do not end with sorting and for directions at both sides of north |
| C115 | f32 as rationals of 24 bits, infinite from 2^128 on, with their bits as natural numbers; f64 as rationals of 53 bits | relative errors of each operation; the first guess by the parity of the exponent and a cubic inequality; each iteration squares the error; negation for long vectors, whose squared length is infinite as f32 |
| C116 | the march of a chunk of nodes with mass and the discretisation (C25, C27, C29), over any ordered field | the Taylor polynomial of the step, in powers of 1 + A, has coefficients that are not negative, so the step is monotone when 1 + A has no negative entries; comparison with a wall at one temperature; for nodes without mass, the maximum principle of their matrix at every turn of the loop; induction over chunks, for whole surfaces with cavities, and over the history; the criterion of the discretisation implies it; negation for a layer without mass that conducts well |
| C117 | both estimators over any function that samples; the random numbers of each sample are an argument, and a division by zero is no number | the sum is a fold; diffuse, mirror and glass from C74 and C75; the expected value as an integral over any number of independent pairs of random numbers; the negation for every clear pane |
| C118 | `interpolate_normal` on the hit that `baricentric_coordinates` and `new_info` give, over the reals, with the panic of `get_normalized` | Unit length and side from the inverse of `normalize`; flat triangles through C80 and C84; no panic from a lower bound of the length of a blend; violations: the weights are rotated (exact normals at the three vertices for every triangle) and the other two axes are not updated |
| C119 | the step of the heat model of C87 over surfaces, fenestrations and rooms, with the loops over chunks of C116 | the bounds of C116 for each surface, the sign of the heat balance of C30 at both bounds and its exact solution for the rooms, put together as an invariant of the whole state, and induction over the steps |
| C120 | `HeatState.step`, `zonesStep` with two settings of the powers | The heat that the air of a room gets is linear in its temperature, with a slope that the powers do not enter; the difference of the two solutions is `q/b (1 - exp(-b dt/C))`, which is not negative and at most `q dt / C` |
| C121 | `HitInfo.transform`, `HitInfo.invTransform` over the reals, without textures | normals are dual to vectors, so that products are kept and a normal is determined by its products; lengths by the matrices of moves and turns; the negation for a shape scaled by two |
| C122 | `Triangle.compare` over the reals | each vertex has a near one; two of them have not the same one if they are two millimetres apart, so the choice is a permutation; the negation with a sliver |
| C123 | `refine` and `mesh_polygon` on the mesh of C51, with a bound on the rounds | a round that changes nothing leaves the mesh as it was and has tested each triangle: induction over the round and over the rounds; the meshes that refining goes through as an inductive relation (C51); the negation: a sound mesh of two triangles whose circumcenter is a corner |

## Findings (the code violates the property)

Each is a theorem `Cxx_violated_...` with a concrete witness.

| id | code | what goes wrong |
|----|------|-----------------|
| C03 | `calendar/src/date.rs` `add_days` | `day + n` is cast to `u8`: 1 January + 300 days is 14 February |
| C04 | `calendar/src/period.rs` `next` | a period through the new year whose tail is shorter than the timestep never ends |
| C08 | `matrix/src/generic_matrix.rs` `add_into`, `sub_into` | the destination's shape is not checked: the call succeeds with a truncated result |
| C08 | same, `prod_into` | a product with a zero dimension panics (`step_by(0)` / `chunks(0)`) |
| C10 | `matrix/src/n_diag_generic_matrix.rs` `new` | ignores the value: element *i* of the storage is *i* |
| C10 | same, `column_prod_into` | panics when the matrix is narrower than the band; the destination must have as many rows as columns |
| C12 | `matrix/src/matrix.rs` `gauss_seidel` | a NaN iterate passes the convergence test, so divergence to NaN is reported as success |
| C14 | `utils/src/progress_bar.rs` `tic` | the recorded progress lags (4 steps end at 75%), and overlapping ticks can push it beyond 100 |
| C15 | `model/src/simulation_state.rs` `push` | a push rejected because the values were taken still appends its element |
| C18 | `model/src/model.rs` `add_fenestration`, `add_hvac`, `add_luminaire` | the state element is registered before the checks that can fail; a rejected window leaves a stale element, and the next accepted one is registered twice |
| C19 | `model/src/scanner.rs` `object` | a file that ends after an identifier is scanned forever: the index steps over the length, which is compared with `==` |
| C19 | same | brackets within strings are counted, so a valid JSON5 object may be cut short |
| C21 | `model/src/surface_trait.rs` | non-unit normals: (0,0,1/2) panics, (0,10,1) is called horizontal |
| C22 | `src/run_simulation.rs` and state header | unknown requested outputs shift or empty the columns; a comma in a name adds a column |
| C25 | `heat/src/discretization.rs` `r_value` | panics with `todo!()` on any construction with a cavity |
| C27 | `heat/src/discretization.rs` `discretize_construction` | a substance without density panics (`unwrap`) although the function returns `Result` |
| C29 | `heat/src/surface.rs` `rk4` | a massive chunk of a single node panics in the banded product |
| C31 | `heat/src/convection.rs` `get_tarp_natural_convection_coefficient` | enhanced and reduced branches are swapped with respect to the documented TARP correlation |
| C31 | `heat/src/convection.rs` `get_tarp_convection_coefficient` | documented roughness index 6 panics, and index 1 yields the coefficient of class 2 |
| C32 | `heat/src/gas.rs` `nu_90` | a Rayleigh number of exactly 50000 panics |
| C32 | `heat/src/gas.rs` `nusselt` | a cavity tilted 180° (heated from above) is treated as heated from below |
| C30 | `heat/src/heat_model.rs` `estimate_zones_future_temperatures` | a zone without any heat exchange ignores its heaters |
| C34 | `weather/src/lib.rs` `find_weather_line` | after the last record of the year the weight counts a year too many, so the result is an extrapolation by hundreds of steps |
| C35 | `weather/src/epw_weather/scanner.rs` `parse_data_periods` | `max(360.)` in place of `min`: every wind direction of the file is read as 360 |
| C35 | `weather/src/epw_weather/scanner.rs` `scan_element` | a text that begins with a separator panics (`end - 1` with `end = 0`) |
| C38 | `weather/src/solar/mod.rs` `perez_direct_rad_coefs` | The table index `prec_water * 5 + delta_kt` is wrong for tables of 7 × 5: two different categories read the same coefficient (`C38_violated_lookup`). |
| C39 | `weather/src/solar/perez.rs` `update_sky_vec` | By day the vector is added to rather than set, though by night it is set to zero: updating the same vector twice gives twice the sky (`C39_violated_twice`). |
| C40 | `geometry/src/transform.rs` `mul_assign` | the inverse of a composition is computed as `inv * other.inv` instead of `other.inv * inv`: the inverse of a translation composed with a rotation is wrong |
| C41 | `geometry/src/transform.rs` `mul_assign` | as a consequence normals transformed by a composition are not perpendicular to the transformed surface |
| C43 | `geometry/src/bbox3d.rs` `intersect` | a ray that runs along a face of the box is missed: the slab of the zero direction gives 0·∞ = NaN |
| C63 | `heat/src/heat_model.rs` `march` | the wind direction of the weather, already in radians, is converted from degrees to radians again: walls that face south are never windward |
| C64 | `geometry/src/vector3d.rs` `is_parallel` | the tolerance is absolute: short perpendicular vectors are parallel, long nearly parallel ones are not |
| C64 | `geometry/src/point3d.rs` `is_collinear` | the tolerance is absolute: the corners of a small triangle are collinear |
| C44 | `geometry/src/triangle3d.rs` `intersect_triangle` | `v > 1` is tested in place of `u + v > 1`: rays through the other half of the parallelogram hit the triangle |
| C44 | `rendering/src/triangle/fallback.rs` `baricentric_coordinates` | the tolerance 1e-5 on the determinant is absolute: a triangle with 3 mm legs is never hit by any ray |
| C46 | `geometry/src/segment3d.rs` `get_intersection_pt` | the coplanarity tolerance is absolute and the first projection that is not degenerate is used: two segments half a unit apart are reported to touch |
| C46 | same | two perpendicular crossing segments of 5 cm are taken for parallel |
| C59 | `geometry/src/utils.rs` `solve_quadratic` | with b = c = 0 the second root is 0/0 = NaN |
| C48 | `geometry/src/loop3d.rs` `close` | not atomic: vertices are removed and the loop is marked closed before the checks that fail, which can leave a closed loop of one vertex whose area is -1 |
| C68 | `geometry/src/loop3d.rs` `test_point` | the ray is 1000 times the distance from the point to the middle of the first side: points of a large loop close to that middle are outside |
| C49 | `geometry/src/polygon3d.rs` `get_closed_loop` | The walk round a hole computes its index as `(id as i32 - j as i32) as usize % n`, which for a negative difference is taken modulo 2^64 first; unless n divides 2^64 the walk of a hole that turns like the outer loop misses its return to the bridge, e.g. a triangle (`C49_violated_walk`, `C49_violated_triangle`) |
| C49 | `geometry/src/polygon3d.rs` `cut_hole` | Holes that cross each other with no vertex inside the other are accepted; area becomes negative (`C49_violated_overlap`) |
| C50 | `geometry/src/triangulation3d.rs` `try_from` | The ear clipping stops after 220 passes, so a bridged loop with more than 221 vertices is always refused (`C50_violated_many`). |
| C51 | `geometry/src/triangulation3d.rs` `split_triangle` | A point inside a triangle but within a millimetre of one of its corners is refused only after the triangle was invalidated: the error leaves a hole in the mesh (and `refine` ignores the error). |
| C51 | `geometry/src/triangulation3d.rs` `invalidate` | Invalidating a triangle that is already invalid decrements the counter of valid triangles again. |
| C53 | `rendering/src/bvh.rs` `intersect` (box test) | A ray parallel to an axis that goes through the edge where two triangles meet can miss both of their boxes (NaN in the slab test), though it hits both triangles. |
| C53 | `rendering/src/bvh.rs` `flatten_node` (i16) | 32768 triangles with the same centre make a leaf whose count wraps to a negative number: it is not recognised as a leaf, and tracing panics. |
| C53 | `rendering/src/bvh.rs` `push_node`, `rendering/src/ray_tracer.rs` | The stack has 32 places: a scene of 44 triangles at distances 13^k gives a higher tree, and tracing panics. |
| C53 | `rendering/src/bvh.rs` `unobstructed_distance` | Only the closest hit of a leaf is looked at: one within a millimetre hides an obstruction in the same leaf. |
| C54 | `rendering/src/image.rs` `colour_to_rgbe` | A grey of 10⁻¹⁹ is saved as a colour that becomes black when it is saved again. |
| C54 | `rendering/src/image.rs` `colour_to_rgbe` | Colours of 2¹²⁷ and more panic in debug builds; otherwise their exponent wraps and they become black. |
| C55 | `rendering/src/image.rs` `from_file` | A file with a header and too few pixels is read without an error; indexing the image then panics. |
| C56 | `rendering/src/colourmap/mod.rs` `map_linear_colour` | With rounding, the last bin can end before the maximum: a value between them reaches `unreachable!()`. |
| C58 | `light/src/solar_surface.rs` `calc_view_factors` | The ray that is cast is the normal, not the sampled direction: something tiny in front of the points makes all view factors zero, and anything else is not seen. |
| C58 | `light/src/solar_surface.rs` `calc_view_factors` | Obstructed directions are not counted as air, as documented, but not at all: a wall that sees only other walls gets no infrared radiation. |
| C58 | `light/src/solar_model.rs` `update_solar_radiation` | Negative irradiance is set to zero for surfaces but not for fenestrations. |
| C58 | `light/src/solar_model.rs` `update_solar_radiation` | The "average of the period" is the mean of the new value and the previous mean: constant radiation is never reached. |
| C58 | `light/src/solar_surface.rs` `calc_view_factors` | With no points per surface the view factors are NaN. |
| C69 | `geometry/src/round_error.rs` `Neg` | -x of the interval from 1 to 2 is empty: the ends are not exchanged |
| C69 | `geometry/src/round_error.rs` `Sub, SubAssign` | low is subtracted from low: 1 - 0 is not in [0,1] - [0,1] |
| C69 | `geometry/src/round_error.rs` `Mul<Float>` | with a negative factor the ends are rounded inwards before they are exchanged |
| C69 | `geometry/src/round_error.rs` `Div` | a divisor interval around zero gives a bounded quotient |
| C69 | `geometry/src/round_error.rs` `MulAssign, DivAssign` | products that underflow to zeros of both signs: the step from the wrong zero stays there |
| C69 | `geometry/src/round_error.rs` `from_value_and_error` | the ends are rounded to nearest, possibly inwards |
| C69 | `geometry/src/round_error.rs` `solve_quadratic` | 3 is a root of x²-3x but in none of the intervals when the coefficient is known to be in [-3,-2] |
| C70 | `geometry/src/sphere3d.rs` `approx_basic_intersection` | a ray along the axis is told that it hits a point that is neither on the sphere nor on the ray (points near the axis are moved) |
| C70 | `geometry/src/sphere3d.rs` `intersection_info` | the detailed intersection at a pole panics in debug builds: the sine of the angle is zero |
| C71 | `geometry/src/cylinder3d.rs` `intersection_info` | a ray from outside hits the back of a cylinder, but the front of a sphere |
| C71 | `geometry/src/cylinder3d.rs` `new_partial` | the cylinder between two points ends at p0 + (√(x²+y²), 0, z) instead of p0 + (x, y, z) |
| C71 | `geometry/src/cylinder3d.rs` `intersect` | consequently a ray far from a cylinder along the second axis is told that it hits it |
| C72 | `geometry/src/disk3d.rs` `basic_intersection` | a ray that leaves a disk hits the disk it has just left (t = 0), unlike for spheres and cylinders |
| C73 | `geometry/src/distant_source3d.rs` `new` | omega, documented as the solid angle, is that of a flat disk: larger than the solid angle of the directions that hit the source |
| C73 | `rendering/src/primitive_samplers.rs` `sphere_solid_angle_pdf` | from inside of a sphere the density is twice what it should be |
| C73 | `rendering/src/primitive_samplers.rs`, `rendering/src/triangle/mod.rs` `triangle_solid_angle_pdf` | the cosine uses the origin of the ray instead of its direction: seen from the origin of the coordinates the density of any triangle is zero, and it changes when the scene is moved |
| C74 | `rendering/src/material/mod.rs` `sample_bsdf` | after any hit on the front of a dielectric the ray is taken to be inside, also when it was reflected; after any hit on the back it is taken to be in the air, also after total reflection |
| C74 | `rendering/src/material/dielectric.rs` `sample_bsdf` | the radiance of refracted light is multiplied by the square root of the ratio of the indexes instead of its square |
| C75 | `rendering/src/material/ward.rs` `sample_ward_anisotropic` | only the third component of the half vector is used: all glossy samples are in the plane of incidence, and along the normal all of them go straight back whatever the roughness |
| C75 | `rendering/src/material/ward.rs` `sample_ward_anisotropic` | with a specularity in (0, 0.00001] the loop never ends |
| C75 | `rendering/src/material/ward.rs` `sample_ward_anisotropic` | the value of a glossy sample is that of the material divided by the cosine of the ray once more |
| C75 | `rendering/src/material/ward.rs` `evaluate_ward_anisotropic` | the half vector is normalised, which the formula used does not expect: a smooth metal sends away almost four times the light that arrives along the normal; the value is not symmetric |
| C76 | `ray_tracer.rs` `get_local_illumination` | With one shadow sample a shadow ray that misses its light is not counted and the same direction is tried again without end; a triangle light seen from its own plane is such a light |
| C76 | `ray_tracer.rs` `trace_ray` | Shadow rays to area lights are weighted below one while paths that meet an emitter after a bounce that is not specular add nothing, so light is lost |
| C76 | `ray_tracer.rs` `trace_ray`, `get_local_illumination` | With several distant lights the probability of choosing a light is in one of the two weights and not in the other: they do not sum to one |
| C76 | `ray_tracer.rs` `get_local_illumination` | The directions given to the density of the material are exchanged: the density of the direction of the eye is used instead of that of the light |
| C78 | `camera/pinhole.rs` `pixel_from_ray` | For films wider than high the pixel found for a ray is (w-h)/2 rows too low, even out of the film, since the top of the film is taken to be at 1 instead of h/w |
| C78 | `camera/pinhole.rs` `pixel_from_ray` | For films higher than wide the rays of the upper and lower rows are said to be out of the film |
| C79 | `colour_matrix.rs` `read_colour_matrix`, `read_matrix` | A file that ends after any of its rows is accepted, with zeros in the missing rows |
| C79 | `colour.rs` `Display`, `colour_matrix.rs` `save_colour_matrix` | Coefficients are written with five decimals: those below 0.000005 are all read back as zero |
| C80 | `rendering/src/triangle/mod.rs` `mesh_sphere` | a sphere with a transformation that scales is meshed with the radius it has before the transformation, so the triangles do not lie on it |
| C81 | `rendering/src/from_obj.rs` `process` | faces with five vertices or more are dropped without an error |
| C81 | `rendering/src/scene.rs` `push_object` | a cylinder of a light-emitting material is added to the lights but has no triangles in the scene, although the documentation says it is added twice |
| C82 | `rendering/src/from_radiance.rs` `consume_object` | comments are not skipped: a file that begins with a comment line is refused with a panic |
| C82 | `rendering/src/from_radiance.rs` `get_modifier_index` | the first material of a name is used, so a redefinition has no effect; Radiance uses the last one before the object |
| C83 | `rendering/src/from_simple_model.rs:166-181` | `push_substance` looks for the substance in a list that nothing is ever added to, so each surface adds its two materials again, against the comment on it (`C83_violated_again`). |
| C83 | `rendering/src/from_simple_model.rs:197` | The back of a surface is given the absorptance of the front of its last layer; the absorptance of the back is never read (`C83_violated_back`). |
| C83 | `rendering/src/from_simple_model.rs:36-38` | A transmittance of 0.92 or more gives a transmissivity over 1, and the glass then gives out more light than it gets (`C83_violated_clear`); one of 0.0001 or less gives a negative transmissivity because of the digits that were cut off the constants, and the glass becomes opaque (`C83_violated_faint`). |
| C83 | `rendering/src/from_simple_model.rs:58-60` | `Wavelengths::Visible` panics with `unimplemented!`, though the documentation of `from_simple_model` offers it (`C83_violated_visible`). |
| C75 | `rendering/src/material/ward.rs` | The density reported for a direction is not the density of the samples: for a material that is all highlight it is larger by the ratio of the cosines of the two directions (C75_violated_density). |
| C85 | `heat/src/surface.rs` `march_nomass` | a layer whose radiation is more than three times its convection (indoors, air close to the temperature of the wall) overshoots: the loop stops as soon as the change grows, with the layer farther from the balance than it was, on the other side (30 °C among 20 °C gives 0 °C with h = 1, h_rad = 5) |
| C86 | `heat/src/surface.rs` `calc_border_conditions` | The front of a surface towards a room (or air at a given temperature) gets the natural convection coefficient of the opposite direction: a warm floor under a room gets that of a warm ceiling, half as large. (`C86_violated_front`) |
| C86 | `heat/src/surface.rs` `calc_border_conditions` | The back of a surface next to air at a given temperature uses the temperature of the front of the surface. (`C86_violated_back_ambient`) |
| C86 | `heat/src/surface.rs` `calc_border_conditions` | Whether the wind blows against an outdoor back is judged with the normal of the front, so windward and lee are exchanged. (`C86_violated_back_wind`) |
| C87 | `heat/src/surface.rs` `march` | A negative solar irradiance on the back is not clamped, because the test looks at the one on the front. (`C87_violated_back_sun`) |
| C87 | `heat/src/heat_model.rs` `calculate_zones_abc` | The heat that a warm wall radiates to a room leaves the wall but never reaches the room: energy is lost. (`C87_violated_radiation_lost`) |
| C88 | `heat/src/glazing.rs` `get_back_glazing_system` | The layers are reversed but not turned around, so that sun from behind meets the front absorptance and reflectance of every layer: a wall painted white outside (0.2) and black inside (0.9) absorbs 0.2 inside. (`C88_violated_back_face`) |
| C89 | src/run_simulation.rs: pre_process | Of the records of an hourly weather file the first and the last have no row (the first time step is never simulated, and 0.1 hours are taken from the end); a file with a single record simulates a whole year. |
| C91 | derive/src/simulation_state_behaviour.rs:258 | the names of the elements are not escaped while requests are: objects whose name has a quotation mark or a control character cannot be requested, or another object is reported |
| C91 | derive/src/simulation_state_behaviour.rs:245 | the names of two spaces are joined with a hyphen: the air from A-B to C and from A to B-C have the same name, and only the first can be reported |
| C92 | derive/src/object_struct.rs:632-633 | looking up by number when the model has no such objects computes `len - 1` and panics in builds with overflow checks |
| C92 | derive/src/object_struct.rs:551 | `research_mode` is passed to all registrations and used by none: without it, scripts can still set temperatures, heat flows and irradiances |
| C93 | model/src/model.rs:101-152 | The text of a model leaves out its name and its solar options: they are lost when it is saved and loaded. |
| C93 | model/src/model.rs:239-243, 262-266 | Loading from JSON does not check objects and surfaces: constructions and spaces that do not exist are accepted, though the same in a text is refused. |
| C93 | model/src/model.rs:205-212 | Loading from JSON depends on the order of the fields: windows are refused if the constructions come after them. |
| C93 | model/src/scanner.rs:217-439 | Objects of an unknown kind in a text are left out without an error. |
| C93 | geometry/src/loop3d.rs:147-179 | An array of coordinates that ends within a point, or with something that is not a number, panics instead of being refused. |
| C93 | geometry/src/loop3d.rs:598-640 | A loop whose last vertices are in line with the first loses one of them each time that it is written and read. |
| C94 | geometry/src/loop3d.rs:251-291 | `is_equal` only tries the first vertex that matches: a loop that visits a point twice (a hole joined by a bridge) is not equal to itself taken from another start |
| C94 | geometry/src/loop3d.rs:990-1008 | `snap` goes on comparing the vertex it has moved: it can end further than the tolerance from where it was, and is counted more than once |
| C94 | geometry/src/loop3d.rs:915-941, 990-1008 | the area of a loop is not computed again after snapping or projecting |
| C94 | geometry/src/polygon3d.rs:392-401 | projecting a polygon leaves its own normal and area as they were |
| C95 | geometry/src/loop3d.rs:1342-1366 `split` | takes the first two crossed edges in index order; for a U shape this can cut across the notch: pieces of 22 and 2 from an area of 20 |
| C95 | geometry/src/loop3d.rs:1014-1049, 1308-1399 `intersect`, `split` | a segment from one side to the opposite one, ending on them, does not split the loop |
| C96 | geometry/src/loop3d.rs:1206-1232 `intersection` | starts from a vertex of one loop that the other contains; crossing bars have none and are said to have nothing in common |
| C96 | geometry/src/loop3d.rs:1185-1304 `intersection`, `bite` | finds one common part only; the other arm of a U shape is neither found nor cut |
| C96 | geometry/src/loop3d.rs:1127-1175 `bite` | stops as soon as the next vertex is the first one, before looking for crossings on the way: a bar across the last side cuts nothing |
| C96 | geometry/src/loop3d.rs:1106-1118 `bite` | a loop that is covered completely stays as it is, with all its area |
| C97 | geometry/src/transform.rs:318-332 | the bound uses gamma(3), but four roundings are made (three sums from left to right after a product), so points can be farther away than the reported error |
| C97 | geometry/src/transform.rs:336-360, 400-428, 85-101 | the matrix of absolute values applied to the error that comes in includes the translation: exact points and vectors translated by 10 get an error of 10, and rays start 10 too far |
| C97 | geometry/src/transform.rs:468-496 | the origin moved past the error is rounded, and may end before the end of the error |
| C98 | `weather/src/solar/mod.rs` `direct_diffuse_from_cloud_generic` | a direct radiation that is NaN is never replaced (`is_nan() && is_infinite()`), and it is NaN whenever the estimated global radiation is zero with the sun ten degrees high or more: `disc_direct_solar` divides zero by zero |
| C98 | same | at every place and on every day there is weather (overcast, moist, a breeze, clear before and after) for which the beam on a horizontal plane is more than the global radiation, so the diffuse radiation is zero |
| C98 | `weather/src/solar/mod.rs` `estimate_global_horizontal_radiation` | with the sun under the horizon the estimate is not zero for all weather: two negative factors give a positive radiation (does not affect `fill_solar_radiation_data`, which has no sun position then) |
| C99 | `weather/src/current_weather.rs` `derive_horizontal_ir` | takes the cover of clouds in tenths, and the field is a fraction (EPW lines are divided by ten), so clouds have almost no effect on the infrared radiation: 1.02 instead of 1.15 for an overcast sky |
| C99 | `weather/src/epw/weather_line.rs` `From<&EPWWeatherLine>` | a missing infrared radiation (9999) is used as it is; nothing is derived for it |
| C100 | `weather/src/solar/perez.rs` `get_sky_func_standard_time` | patches with a negative radiance are left out of the normalisation but not of the result: on every day there is a sky, with less radiation than what reaches the atmosphere, whose radiance around the sun is negative |
| C101 | `image.rs:311-325` | the search for the brightest pixel in the logarithmic scale starts at 0.001, as if a logarithm were a luminance: the scale of every image without pixels above 1 cd/m² ends at 1.0046 cd/m² (`C101_violated_dim`, `C101_violated_brightest`) |
| C101 | `image.rs:299`, `colourmap/mod.rs:96` | a pixel with a negative luminance has a NaN logarithm and reaches `unreachable!()` (`C101_violated_negative`) |
| C101 | `image.rs:336` | the size is cut to 16 bits (`C101_violated_size`) |
| C102 | `perez.rs:287`, `scene.rs:144` | at night the sky is asked for before the sun is looked for, and an `unwrap` panics (`C102_violated_night`) |
| C102 | `scene.rs:170` | a sun within three degrees of the vertical is taken to be 87 degrees away from it (`acos` of three degrees, in radians), and is too dim (`C102_violated_zenith`) |
| C103 | solar_model.rs:349-376 | optical data found at the path are used for whatever building is simulated, without any check: after a change of the building the old coefficients are used, and with one more outdoor surface every step panics |
| C103 | solar_model.rs:420-430 | subdivisions of the sky of 9 or more are accepted as an option, calculated (and saved), and then refused |
| C103 | solar_model.rs:403-410 | a building with fenestrations but without surfaces is given subdivision 1 whatever the option was; with another subdivision every step by day panics |
| C104 | `heat/src/heat_model.rs:227-257`, `427-445`, `surface.rs:1302-1353` | the march of a surface goes by the node temperatures kept in its memory; those that are set in the state after the memory was allocated are ignored and overwritten (`C104_violated_nodes`) |
| C106 | calendar/src/date.rs:70-86 | When the minutes round up to 60 in the last hour, the label reads 24:00 of the day that ends, not 0:00 of the next. With 3, 5, 7, 9, 12, 15 or 60 time steps per hour rounding makes it so at every midnight of a simulation. |
| C107 | calendar/src/date.rs:138-151 | into_naive_datetime takes the seconds from 60 minus the minutes, so 12:00:15 becomes 12:00:45, and rounds the minutes up from half a minute on, so 12:00:30 becomes 12:01:30. |
| C108 | src/run_simulation.rs:204-266, 301-365 | The report is written with Write::write, whose result is ignored, and not with write_all: a destination that takes a part of a text loses the rest and the run ends well. |
| C109 | bin/simple.rs:37-41, 69-73 | The output file is created, and so emptied, before options, weather and script are looked at: without weather file (or with -n 0, or a wrong script) the command fails and earlier results are lost. An output with the path of the weather or the script empties it before it is read. |
| C110 | light/src/optical_info.rs: OpticalInfo::new | With zero irradiance points, or a sky subdivision of zero, the calculation of the optical data panics instead of returning an error (C110_violated_no_points, C110_violated_no_subdivision) |
| C111 | bin/spict.rs 39-60 | A point or direction with two spaces between its numbers is refused (`split(' ')` gives an empty part). |
| C111 | bin/scompare.rs 49- | An image file that was cut short is read without complaint and comparing it panics, instead of giving an error. |
| C111 | bin/sfluxmtx.rs 57-120 | The sensors given and their number are ignored: the matrix always has six rows, all of the sensor at (1, 6, 1) looking up. |
| C03 | calendar/src/date.rs 251-266 | `add_hours` with a negative amount drops its whole days (`as usize` saturates at zero) and moves the date forwards: one hour before noon is eleven in the morning of the next day. |
| C112 | rendering/src/scene.rs 299-357 | `push_object` does not discard the acceleration structure: what is added after it was built is in the scene, but every ray goes through it. |
| C113 | geometry/src/triangle3d.rs:540-543 | With textures, the second coordinate of a point of a triangle is told to be the first one, so that the texture is read along a diagonal (`C113_violated_triangle`) |
| C113 | geometry/src/disk3d.rs:183-190 | The tangents of a disk are not the derivatives along its coordinates: one component is scaled by the width of the ring over the distance to the centre and none by the angle, so that the first leaves the circle and the second the radius (`C113_violated_disk`) |
| C114 | weather/src/lib.rs:203-211 | Adding weather does not sort it, and look-ups by bisection then miss records that are there without notice (`C114_violated_unsorted`) |
| C114 | weather/src/current_weather.rs:174 | Directions of the wind are interpolated as plain numbers: between 350° and 10° the wind is told to come from the south (`C114_violated_wind`) |
| C115 | `geometry/src/quick_inverse_sqrt.rs` `quick_inv_sqrt` | the squared length becomes `f32`, so with the feature vectors longer than 1.8e19 are normalised to infinite and NaN components |
| C116 | heat/src/discretization.rs `discretize_construction` | A layer with mass next to a thin, conductive layer whose mass is neglected (concrete with 1 mm of steel) diverges: the criterion for the time step ignores the neighbour, and a node reaches −100,000 °C in five minutes |
| C117 | `rendering/src/material/mat_trait.rs` `directional_rho` | Samples are asked for with `TransFlag::All`, so transmitted light is counted: every clear pane of glass has a reflectance of one (`C117_violated_glass`). With zero samples the result is not a number. |
| C27 | `heat/src/heat_model.rs` `new` | The number of parts of a time step is doubled after the walls were discretised, so that the step may be half of the minimum of 60 seconds that they were given (`C27_violated_minimum`). |
| C118 | rendering/src/interaction.rs:75 | `interpolate_normal` weights the first normal by `u`, the second by `v` and the third by `1 - u - v`, but `u` and `v` are the weights of the second and third vertex: each vertex is shaded with the normal of another one. The two other axes of the hit are left as they were, and are no longer at right angles with the normal. |
| C119 | heat/src/surface.rs `march_nomass` | A sheet of glass without mass at 21 °C between two rooms at 20 °C, in the dark and without heating, gets colder than both rooms in one step: the iteration overshoots when radiation exceeds three times the convection |
| C120 | heat/src/heat_model.rs, estimate_zones_future_temperatures | A heater in a room whose air exchanges less than 1e-9 W/K does not warm it: the temperature is kept as it is |
| C121 | `geometry/src/intersection.rs` `transform`, `geometry/src/transform.rs` `transform_normal` | normals are not normalised again: a shape scaled by two has normals of length one half in the world |
| C122 | `geometry/src/triangle3d.rs` `compare` | only looks for the vertices of one triangle in the other: a sliver with two vertices 1.5 mm apart is the same as a triangle with an edge of 5 m, which is not the same as the sliver |
| C123 | `geometry/src/triangulation3d.rs` `refine` | A triangle whose circumcenter coincides with a vertex of another triangle is never refined: `add_point` answers `Ok(false)`, nothing changes, and `mesh_polygon` ends well with a triangle larger than `max_area`. |

## What is simplified and what is not modelled

Per function, the table below says which functions have a definition.  Beyond
that, these simplifications hold:

* **Evaluators.** `Exact*.lean` evaluate loops, polygons, triangulations, splits
  and cuts with rational coordinates.  They are not part of the model: each comes
  with a proof that the model gives the same result, and serves only to compute
  witnesses.
* **Rounding.** Exact numbers, except: C43 (NaN and infinities), `Round` (rounding
  to 53 bits without overflow and subnormal numbers), `F64` (bit patterns of
  doubles) and the interval arithmetic of C69.  Spheres, cylinders and disks are
  intersected in exact arithmetic, without their error bounds.
* **Debug assertions** are left out, except where a definition has a flag `checks`
  that stands for a debug build.
* **Random numbers** are arguments; nothing is proved about their distribution
  except through the densities that the code reports.
* **Rounds.** `refine` (meshes), the march of massless surfaces and the walks
  around two loops have a bound on the number of rounds as in the code, or the
  number is an argument.
* **Rendering.** The tracer sees the scene through an abstract `World` and the
  daylight coefficients through an abstract `Course`; shadow tests of lights are a
  parameter (`blocked`); the sorting in the bounding-volume hierarchy is any
  permutation.  Debug assertions of cameras and materials are left out.  OBJ and
  Radiance readers start from text that is already split where the crate `obj`
  does so; parsing of numbers is a parameter; textures are left out.
* **Buildings from and to files.** The derived serde code of single objects, and
  the JSON text of an object, are parameters with a round-trip hypothesis; which
  objects are written, in which order, and what is read again is modelled.
* **Scripts.** The Rhai language is not modelled: a script is a finite tree of
  calls to the registered functions.
* **Procedural macros** are modelled by the code they produce for the types of the
  crate `model` (getters and setters of state elements, names, API functions),
  not as functions on syntax.
* **Simulation loop.** Controllers and physics are arbitrary functions; a mutex is
  its content; times are exact.
* **Surfaces.** The other modules' readings are constant during one heat step; the
  fallback for NaN convection coefficients, and warnings, are left out.
* **Splits and cuts of loops.** Lengths are compared by their squares.
* **Not modelled at all:** byte I/O, parsing of command lines, printing of messages
  and documentation, threads of the renderer (other than the counter of the
  progress bar), Metropolis rendering (not compiled: its `mod` is commented out),
  performance.

## What is modelled, function by function

Generated from the citations in the Lean sources.  A function is listed as
modelled when a definition cites its lines; the comment at the definition says
what was simplified.  Tests, examples and benchmarks are left out.

| Rust file | Lean modules | functions modelled | functions not modelled |
|---|---|---|---|
| air/src/air_model.rs | Air.Model, Sim.WiringModel | `new`, `march` | `module_name`, `allocate_memory` |
| air/src/eplus.rs | Air.Model | `design_flow_rate`, `blast_design_flow_rate`, `doe2_design_flow_rate`, `effective_leakage_area` | – |
| air/src/resolvers.rs | Air.Model | `constant_resolver`, `blast_resolver`, `doe2_resolver`, `design_flow_rate_resolver`, `resolve_stack_coefficient`, `resolve_wind_coefficient`, `effective_air_leakage_resolver` | – |
| bin/scompare.rs | Render.ToolsModel | `main` | – |
| bin/sfalsecolor.rs | Render.ToolsModel | `main` | – |
| bin/sfluxmtx.rs | Render.ToolsModel | `main` | – |
| bin/simple.rs | Sim.CommandModel | `run_sim`, `choose_controller`, `main` | `abort` |
| bin/spict.rs | Render.ToolsModel | `from_str`, `main` | `fmt` |
| calendar/src/date.rs | Calendar.Model, Calendar.ShowModel | `from`, `fmt`, `sub`, `partial_cmp`, `cmp`, `into_naive_datetime`, `interpolate`, `from_day_of_year`, `day_of_year`, `add_hours`, `add_days`, `add_seconds`, `add_minutes`, `same_day`, `is_earlier` | – |
| calendar/src/period.rs | Calendar.Model, Calendar.ShowModel | `new`, `contains`, `next` | – |
| derive/src/field.rs | Sim.ScriptModel | `api_name`, `api_getter`, `api_setter` | `new` (×2), `from_type`, `data`, `get_documentation_type`, `get_documentation` |
| derive/src/object_enum.rs | Sim.ScriptModel | `gen_group_api`, `register_api` | `data`, `new` (×2), `gen_display`, `fmt`, `gen_docs`, `gen_group_behaviour`, `name`, `print_doc` |
| derive/src/object_struct.rs | Building.SaveModel, Heat.WholeModel, Light.SolarMarchModel, Sim.ControlModel, Sim.ScriptModel, Sim.WiringModel | `gen_display`, `fmt`, `gen_state_getters_setters`, `get_api_getters_setters_docs`, `gen_object_api` | `new` (×3), `has_name`, `gen_docs`, `gen_new`, `collect_required_fields`, `get_object_fields`, `get_api`, `register_api`, `print_api_doc`, `gen_group_member_api` |
| derive/src/simulation_state_behaviour.rs | Building.StateModel, Sim.NamesModel | `derive_enum_kind`, `is_physical`, `is_personal`, `is_operational`, `derive_output` | `get_enum_variants`, `contains_attr`, `sanitize_docs`, `stringify` |
| geometry/src/bbox3d.rs | Geometry.BBoxModel | `get_mins_maxs`, `new`, `from_point`, `from_union_point`, `from_union`, `from_intersection`, `overlaps`, `point_inside`, `point_inside_exclusive`, `max_extent`, `surface_area`, `intersect` | – |
| geometry/src/cylinder3d.rs | Geometry.ShapeModel, Geometry.TangentModel | `new`, `new_partial`, `new_transformed`, `basic_intersection`, `intersection_info`, `bounds`, `area`, `intersect_local_ray`, `intersect`, `simple_intersect`, `world_bounds` | `id`, `transform`, `simple_intersect_local_ray` |
| geometry/src/disk3d.rs | Geometry.ShapeModel, Geometry.TangentModel | `new`, `new_detailed`, `basic_intersection`, `intersection_info`, `area` | `bounds`, `id`, `transform`, `simple_intersect_local_ray`, `intersect_local_ray`, `intersect`, `simple_intersect`, `world_bounds` |
| geometry/src/distant_source3d.rs | Geometry.ShapeModel | `new`, `get_proxy_disk`, `simple_intersect_local_ray` | `id`, `bounds`, `area`, `transform`, `intersect_local_ray`, `intersect`, `simple_intersect`, `world_bounds` |
| geometry/src/intersection.rs | Geometry.HitModel, Geometry.ShapeModel, Geometry.TangentModel | `get_side`, `new`, `transform`, `inv_transform` | `default` (×2) |
| geometry/src/lib.rs | Geometry.ErrorModel | types and constants | – |
| geometry/src/loop3d.rs | Geometry.EditModel, Geometry.LoopModel, Geometry.PolygonModel, Geometry.SaveModel, Geometry.SplitModel, Geometry.TriangulationModel | `serialize`, `deserialize`, `new`, `is_equal`, `reverse`, `bbox`, `sanitize`, `remove`, `valid_to_add`, `push_collinear`, `push`, `is_diagonal`, `open`, `close`, `set_normal`, `is_coplanar`, `test_point`, `set_perimeter`, `set_area`, `area`, `perimeter`, `centroid`, `contains_segment`, `contains_vertex`, `containing_segment`, `project_into_plane`, `normal_distance`, `snap`, `intersect`, `get_closest_intersection_pt`, `bite`, `intersection`, `split`, `split_from_slice`, `segments` | `into_iter`, `fmt`, `default`, `index`, `get_reversed`, `with_capacity`, `closed`, `is_empty`, `vertices`, `mut_vertices`, `len`, `normal`, `is_closed` |
| geometry/src/plane3d.rs | Geometry.ShapeModel | `new`, `test_point`, `intersect` | – |
| geometry/src/point3d.rs | Geometry.ErrorModel, Geometry.VecModel | `is_zero`, `squared_distance`, `distance`, `compare_by`, `compare`, `is_collinear`, `distance_to_plane`, `squared_distance_to_line`, `project_into_plane`, `add` (×2), `sub` (×2), `mul` | `fmt`, `from`, `new`, `distance_to_line`, `scale_components`, `add_assign` (×2), `sub_assign`, `mul` (×2), `mul_assign`, `div`, `div_assign` |
| geometry/src/polygon3d.rs | Building.ModelModel, Geometry.EditModel, Geometry.PolygonModel, Geometry.SaveModel | `from`, `deserialize`, `serialize`, `new`, `reverse`, `test_point`, `cut_hole`, `get_closed_loop`, `contains_segment`, `project_into_plane`, `snap` | `fmt`, `get_reversed`, `normal`, `outer_centroid`, `outer`, `mut_outer`, `clone_outer`, `n_inner_loops`, `inner`, `mut_inner`, `area` |
| geometry/src/quick_inverse_sqrt.rs | Geometry.QuickModel | `quick_inv_sqrt` | – |
| geometry/src/ray3d.rs | Geometry.ErrorModel, Geometry.TriangleModel | `project` | `advance` |
| geometry/src/round_error.rs | Geometry.ApproxModel, Geometry.ShapeModel | `next_float_up`, `next_float_down`, `from`, `from_value_and_error`, `midpoint`, `sqrt`, `absolute_error`, `solve_quadratic`, `neg`, `add`, `sub`, `max_min`, `mul` (×2), `div`, `mul_assign`, `div_assign` | `from_bounds`, `as_float`, `add`, `sub`, `div`, `add_assign` (×2), `sub_assign` (×2), `mul_assign`, `div_assign` |
| geometry/src/segment3d.rs | Geometry.SegmentModel | `compare`, `contains_point`, `contains`, `get_intersection_pt`, `intersect`, `touches`, `midpoint` | `new`, `start`, `end`, `as_vector3d`, `as_reversed_vector3d`, `length` |
| geometry/src/sphere3d.rs | Geometry.ShapeModel, Geometry.TangentModel | `new`, `centre`, `new_partial`, `new_partial_transformed`, `approx_basic_intersection`, `intersection_info`, `bounds`, `area`, `intersect_local_ray`, `intersect`, `simple_intersect`, `world_bounds` | `new_transformed`, `id`, `transform`, `simple_intersect_local_ray` |
| geometry/src/transform.rs | Geometry.ErrorModel, Geometry.ShapeModel, Geometry.TransformModel | `mul4x4point`, `mul4x4vec`, `mul4x4_abs`, `mul4x4`, `mul_assign`, `new`, `translate`, `scale`, `rotate_x`, `rotate_y`, `rotate_z`, `changes_hands`, `transform_pt`, `inv_transform_pt`, `transform_pt_with_error`, `inv_transform_pt_with_error`, `transform_pt_propagate_error`, `inv_transform_pt_propagate_error`, `transform_vec`, `inv_transform_vec`, `transform_vec_with_error`, `inv_transform_vec_with_error`, `transform_vec_propagate_error`, `inv_transform_vec_propagate_error`, `transform_normal`, `inv_transform_normal`, `transform_ray`, `inv_transform_ray`, `transform_ray_propagate_error`, `inv_transform_ray_propagate_error`, `transform_bbox`, `inv_transform_bbox` | `default` |
| geometry/src/triangle3d.rs | Geometry.TangentModel, Geometry.TriangleModel, Geometry.TriangulationModel | `intersect_triangle`, `new`, `set_normal`, `set_area`, `circumradius`, `aspect_ratio`, `circumcenter`, `centroid`, `vertex`, `segment`, `test_point`, `get_edge_index_from_segment`, `has_vertex`, `compare`, `bounds`, `intersect_local_ray` | `is_vertex`, `is_edge`, `fmt`, `normal`, `area`, `a`, `b`, `c`, `set_a`, `set_b`, `set_c`, `ab`, `bc`, `ca`, `get_edge_index_from_points`, `basic_intersection`, `id`, `transform`, `simple_intersect_local_ray`, `intersect`, `simple_intersect`, `world_bounds` |
| geometry/src/triangulation3d.rs | Geometry.TriangulationModel, Render.RadianceModel | `from_i`, `add`, `new` (×2), `set_neighbour`, `neighbour`, `constrain`, `is_constrained`, `try_from`, `get_trilist`, `mesh_polygon`, `mark_neighbourhouds`, `invalidate`, `get_first_invalid`, `mark_as_neighbours`, `push`, `get_opposite_vertex`, `get_flipped_aspect_ratio`, `flip_diagonal`, `split_edge`, `split_triangle`, `restore_delaunay`, `add_point_to_triangle`, `add_point`, `refine`, `is_convex` | `as_i`, `invalidate`, `default`, `try_from`, `with_capacity`, `len`, `is_empty`, `n_triangles`, `n_valid_triangles` |
| geometry/src/utils.rs | Geometry.QuadraticModel | `solve_quadratic` | – |
| geometry/src/vector3d.rs | Building.OrientationModel, Geometry.ErrorModel, Geometry.QuickModel, Geometry.VecModel | `get_perpendicular` (×2), `compare`, `cross`, `length`, `length_squared`, `normalize`, `is_zero`, `is_parallel`, `is_same_direction`, `scale_components`, `mul` (×2), `div`, `add`, `neg`, `sub` | `fmt`, `from`, `new`, `z`, `x`, `y`, `abs`, `as_point3d`, `get_normalized`, `mul`, `mul_assign`, `div_assign`, `add_assign`, `sub_assign` |
| heat/src/cavity.rs | Heat.GasModel | `u_value` | – |
| heat/src/convection.rs | Heat.ConvectionModel, Heat.ConvectionProps | `get_tarp_natural_convection_coefficient`, `get_tarp_convection_coefficient` | – |
| heat/src/discretization.rs | Heat.ChunkModel, Heat.DiscretizationModel, Heat.StabilityModel, Heat.StabilityProps | `u_value`, `new`, `chunk_segments`, `get_chunks`, `build`, `r_value`, `min_dx`, `nsegments`, `discretize_construction`, `get_k_q` | – |
| heat/src/gas.rs | Heat.GasModel | `raleigh`, `cavity_convection`, `density`, `in_kelvin`, `nusselt`, `nu_0_60`, `nu_60`, `nu_60_90`, `nu_90`, `nu_90_180` | `thermal_conductivity`, `dynamic_viscosity`, `heat_capacity`, `mass` |
| heat/src/glazing.rs | Heat.AbsorptionModel, Heat.GlazingModel | `new`, `get_glazing_from_iter`, `get_front_glazing_system`, `get_back_glazing_system`, `combined_tau`, `combined_rho_front`, `combined_rho_back`, `combine`, `combine_layers`, `combined_alphas`, `alphas` | `tau`, `rho_front`, `rho_back`, `alpha_front`, `alpha_back` |
| heat/src/heat_model.rs | Heat.SurfaceModel, Heat.WholeModel, Heat.WindModel, Heat.ZoneModel, Sim.RunModel, Sim.WiringModel | `get_boundary_temperature`, `iterate_surfaces` (×2), `allocate_memory`, `new`, `march`, `get_thermal_zone`, `calculate_zones_abc`, `get_current_zones_temperatures`, `estimate_zones_mean_future_temperatures`, `estimate_zones_future_temperatures` | `module_name`, `dt_subdivisions` |
| heat/src/heating_cooling.rs | Heat.WholeModel, Heat.ZoneModel | `calc_cooling_heating_power` | `from` |
| heat/src/lib.rs | Heat.GasModel | types and constants | – |
| heat/src/surface.rs | Heat.AbsorptionModel, Heat.ChunkModel, Heat.NomassModel, Heat.SurfaceModel, Heat.WholeModel, Heat.WindModel, Sim.WiringModel | `is_windward`, `add_assign`, `scale`, `new` (×2), `with_capacity`, `rearrange_k`, `rk4`, `allocate_memory`, `calc_border_conditions`, `march_mass`, `march_nomass`, `march` | `set_front_boundary`, `set_back_boundary`, `march_nomass_newton_ralphson`, `march_nomass_virtual_mass` |
| heat/src/zone.rs | Heat.WholeModel, Heat.ZoneModel, Sim.WiringModel | `from_space`, `mcp` | – |
| light/src/optical_info.rs | Light.IncidentModel, Light.OpticalModel, Light.SolarMarchModel, Sim.WiringModel | `new` | – |
| light/src/solar_model.rs | Light.IncidentModel, Light.SolarMarchModel, Sim.WiringModel, Weather.RadiationModel | `update_ir_radiation`, `ir`, `update_solar_radiation`, `new`, `march` | `module_name`, `allocate_memory` |
| light/src/solar_surface.rs | Light.IncidentModel, Light.OpticalModel, Render.DaylightModel, Render.SamplerModel, Sim.WiringModel | `get_sampler`, `new`, `boundary_receives_sun`, `calc_solar_dc_matrix`, `make_fenestrations`, `make_surfaces`, `front_rays`, `back_rays`, `solar_irradiance`, `calc_view_factors` | – |
| matrix/src/generic_matrix.rs | Heat.AbsorptionModel, Matrix.Model, Render.DaylightModel | `from_data`, `new`, `diag`, `eye`, `empty`, `is_empty`, `copy_from`, `size`, `index`, `get`, `set`, `add_to_element`, `scale_element`, `add_into`, `sub_into`, `scale_into`, `prod_into`, `prod_tri_diag_into`, `prod_n_diag_into`, `from_prod_n_diag`, `compare`, `concat_rows`, `add`, `add_assign`, `sub`, `mul` (×2), `mul_assign` | `fmt`, `as_slice`, `sub_assign`, `div`, `div_assign` |
| matrix/src/matrix.rs | Matrix.GaussModel, Matrix.SeidelModel | `n_diag_gaussian`, `mut_n_diag_gaussian`, `aux_scale`, `aux_add`, `gauss_seidel` | – |
| matrix/src/n_diag_generic_matrix.rs | Matrix.NDiagModel | `new`, `copy_from`, `acc_n_in_row`, `zeroes_before`, `n_in_row`, `index`, `is_diag_value`, `get`, `set`, `add_to_element`, `scale_element`, `column_prod_into`, `scale_into`, `mul_assign` | `fmt`, `validate_n`, `size` |
| matrix/src/n_diag_matrix.rs | Matrix.GaussModel | `mut_gaussian` | – |
| model/src/boundary.rs | Building.ModelModel | types and constants | – |
| model/src/fenestration.rs | Building.ModelModel, Building.SaveModel, Heat.WholeModel, Render.FromModelModel, Sim.ScriptModel, Sim.WiringModel | `front_infrared_irradiance`, `back_infrared_irradiance`, `front_solar_irradiance`, `back_solar_irradiance`, `add_front_convection_state`, `add_back_convection_state`, `add_front_convective_heatflow_state`, `add_back_convective_heatflow_state`, `add_front_solar_irradiance_state`, `add_back_solar_irradiance_state`, `add_front_ir_irradiance_state`, `add_back_ir_irradiance_state`, `add_node_temperature_states` | `name`, `area`, `vertices`, `mut_vertices`, `outer`, `mut_outer`, `front_boundary`, `back_boundary`, `set_front_boundary`, `set_back_boundary`, `normal`, `fixed_front_hs`, `fixed_back_hs`, `set_front_convective_heat_flow`, `set_back_convective_heat_flow`, `set_front_convection_coefficient`, `set_back_convection_coefficient`, `front_convection_coefficient`, `back_convection_coefficient`, `first_node_temperature_index`, `last_node_temperature_index`, `clone_loop`, `is_operable` |
| model/src/infiltration.rs | Air.Model | types and constants | – |
| model/src/luminaire.rs | Building.SaveModel, Sim.ScriptModel | types and constants | – |
| model/src/model.rs | Building.ModelModel, Building.SaveModel, Render.FromModelModel, Sim.CommandModel | `fmt`, `default`, `visit_map`, `print_to_file`, `print_to_json_file`, `push_to_state`, `take_state`, `from_json`, `from_json_file`, `from_file`, `add_object`, `add_substance`, `get_substance`, `add_material`, `get_material`, `add_construction`, `get_construction`, `add_surface`, `get_surface`, `add_space`, `get_space` (×2), `add_building`, `get_building`, `add_fenestration`, `get_fenestration`, `add_hvac`, `get_hvac`, `add_luminaire`, `get_luminaire`, `get_material_substance`, `get_hvac_setpoints`, `get_space_sizes` | `expecting`, `deserialize`, `geolocation`, `from_bytes` |
| model/src/rhai_api.rs | Sim.ScriptModel | `register_control_api` | – |
| model/src/scanner.rs | Building.SaveModel, Building.ScannerModel | `skip_white_space`, `identifier`, `object`, `parse_model` | `new`, `make_error_msg`, `advance`, `peek`, `peek_next`, `update_start_index` |
| model/src/simulation_state.rs | Building.StateModel | `default`, `push`, `len`, `copy_physical_state`, `copy_operational_state`, `copy_individual_state`, `take_values` | `new`, `is_empty`, `n_operational`, `n_individual`, `copy_from`, `index` |
| model/src/simulation_state_element.rs | Building.StateModel, Sim.NamesModel | types and constants | – |
| model/src/site_details.rs | Air.Model | `default`, `wind_speed_modifier` (×2) | – |
| model/src/surface.rs | Building.ModelModel, Building.SaveModel, Heat.WholeModel, Render.FromModelModel, Sim.ScriptModel | `front_infrared_irradiance`, `back_infrared_irradiance`, `front_solar_irradiance`, `back_solar_irradiance` | `name`, `area`, `mut_vertices`, `vertices`, `outer`, `mut_outer`, `front_boundary`, `back_boundary`, `set_front_boundary`, `set_back_boundary`, `normal`, `fixed_front_hs`, `fixed_back_hs`, `set_front_convective_heat_flow`, `set_back_convective_heat_flow`, `set_front_convection_coefficient`, `set_back_convection_coefficient`, `front_convection_coefficient`, `back_convection_coefficient`, `first_node_temperature_index`, `last_node_temperature_index`, `add_front_convection_state`, `add_back_convection_state`, `add_front_convective_heatflow_state`, `add_back_convective_heatflow_state`, `add_front_solar_irradiance_state`, `add_back_solar_irradiance_state`, `add_front_ir_irradiance_state`, `add_back_ir_irradiance_state`, `add_node_temperature_states` |
| model/src/surface_trait.rs | Building.OrientationModel, Heat.WholeModel | `get_orientation`, `outside_orientation`, `inside_orientation`, `front_temperature`, `back_temperature`, `get_node_temperatures`, `set_node_temperatures` | `fmt`, `to_str`, `orientation`, `bbox` |
| polynomial/src/lib.rs | Heat.GasModel, Polynomial.Model | `new`, `is_empty`, `push`, `eval` | `len` |
| rendering/src/bvh.rs | Render.BvhModel | `get_bucket_index`, `new` (×2), `bounds`, `new_interior`, `recursive_build`, `is_leaf`, `flatten_node`, `intersect`, `unobstructed_distance` | `new`, `as_array`, `new_leaf`, `pop_node`, `push_node` |
| rendering/src/camera/pinhole.rs | Render.CameraModel | `new`, `pixel_from_ray`, `gen_ray` | `gen_random_sample`, `film_resolution`, `view` |
| rendering/src/camera/view.rs | Render.CameraModel | `normalize`, `view_right` | `default` |
| rendering/src/colour.rs | Render.DaylightModel, Render.FalsecolourModel, Render.ImageModel, Render.MaterialModel, Render.MatrixFileModel | `gray`, `radiance`, `luminance`, `max`, `fmt` | `default`, `one`, `zero`, `powi`, `powf`, `is_black`, `normalize`, `add` (×3), `sub` (×3), `add_assign` (×2), `sub_assign` (×2), `mul` (×3), `div` (×3), `mul_assign` (×2), `div_assign` (×2), `from` |
| rendering/src/colour_matrix.rs | Render.DaylightModel, Render.MatrixFileModel | `average_matrix`, `colour_matrix_to_radiance`, `colour_matrix_to_luminance`, `save_colour_matrix`, `save_matrix`, `read_colour_matrix` | `read_matrix` |
| rendering/src/colourmap/mod.rs | Render.ColourmapModel, Render.FalsecolourModel | `map_linear_colour` | `as_slice`, `map_linear` |
| rendering/src/daylight_coefficients.rs | Render.DaylightModel | `calc_dc`, `trace_ray` | `default` |
| rendering/src/from_obj.rs | Render.StageModel | `process`, `add_from_obj_source` | `add_from_obj` |
| rendering/src/from_radiance.rs | Render.RadianceModel | `get_modifier_index`, `consume_whitespace`, `consume_non_white`, `consume_char`, `reach_next_token`, `consume_token`, `consume_object`, `consume_metal`, `consume_plastic`, `consume_light`, `consume_mirror`, `consume_dielectric`, `consume_glass`, `consume_sphere`, `consume_source`, `consume_polygon`, `from_radiance_source` | `error_here`, `from_radiance` |
| rendering/src/from_simple_model.rs | Render.FromModelModel | `transmittance_to_transmissivity`, `build_scene`, `push_substance`, `get_modifier_index`, `substance_to_material` | – |
| rendering/src/image.rs | Render.FalsecolourModel, Render.ImageModel, Render.ToolsModel | `rusty_frexp`, `rusty_ldexp`, `colour_to_rgbe`, `rgbe_to_colour`, `index_mut`, `index`, `new`, `diff`, `from_pixels`, `save_hdre`, `from_file`, `save_log_falsecolour`, `save_falsecolour` | – |
| rendering/src/interaction.rs | Render.ShadingModel | `interpolate_normal` | `transform`, `get_triad` |
| rendering/src/material/bsdf_sample.rs | Render.MaterialModel | `new_diffuse` | `new`, `with_eta`, `with_is_proportional`, `with_eta_and_is_proportional`, `is_reflection`, `is_transmission`, `is_diffuse`, `is_glossy`, `is_specular`, `default` |
| rendering/src/material/dielectric.rs | Render.MaterialModel | `sample_bsdf` | `refl_trans`, `id`, `flags`, `pdf`, `eval_bsdf`, `colour` |
| rendering/src/material/diffuse.rs | Render.MaterialModel | `eval_bsdf`, `pdf`, `sample_bsdf` | `new`, `id`, `flags`, `colour` |
| rendering/src/material/glass.rs | Render.MaterialModel | `any_transmission`, `transmitted_cos`, `sample_bsdf` | `id`, `flags`, `colour`, `eval_bsdf`, `pdf` |
| rendering/src/material/local_coordinates_utils.rs | Render.MaterialModel | `same_heisphere` | `cos_theta`, `cos2_theta`, `abs_cos_theta`, `sin2_theta`, `sin_theta`, `tan_theta`, `tan2_theta`, `cos_phi`, `sin_phi`, `cos_d_phi` |
| rendering/src/material/mat_trait.rs | Render.MaterialModel, Render.ReflectanceModel | `is_reflective`, `is_transmissive`, `is_specular`, `directional_rho`, `hemispherical_rho` | `bitand` (×2), `is_diffuse` (×2), `is_glossy` (×2), `is_non_specular` (×2), `is_reflective`, `is_transmissive`, `is_specular` |
| rendering/src/material/metal.rs | Render.MaterialModel | `sample_bsdf`, `eval_bsdf` | `id`, `flags`, `colour`, `pdf` |
| rendering/src/material/mirror.rs | Render.MaterialModel | `sample_bsdf` | `id`, `colour`, `flags`, `pdf`, `eval_bsdf` |
| rendering/src/material/mod.rs | Render.MaterialModel, Render.StageModel | `emits_direct_light`, `to_local`, `to_world`, `sample_bsdf` | `id`, `colour`, `emits_light`, `specular_only`, `eval_bsdf`, `pdf` |
| rendering/src/material/plastic.rs | Render.MaterialModel | `sample_bsdf`, `eval_bsdf` | `id`, `flags`, `colour`, `pdf` |
| rendering/src/material/specular.rs | Render.MaterialModel | `cos_and_n`, `fresnel_te`, `fresnel_tm`, `fresnel_reflectance`, `fresnel_transmission_dir`, `mirror_direction` | `mirror_bsdf`, `eval_mirror_bsdf` |
| rendering/src/material/ward.rs | Render.MaterialModel | `sample_ward_anisotropic`, `ward_pdf`, `evaluate_ward_anisotropic` | – |
| rendering/src/primitive.rs | Render.LightModel, Render.StageModel | `id`, `sample_direction` | `default`, `world_bounds`, `intersect`, `simple_intersect`, `solid_angle_pdf`, `direction` |
| rendering/src/primitive_samplers.rs | Render.LightModel, Render.SamplerModel | `uniform_cone_pdf`, `triangle_direction`, `triangle_solid_angle_pdf`, `sphere_solid_angle_pdf`, `sphere_direction`, `sample_sphere_surface`, `source_solid_angle_pdf` | `sample_triangle_surface`, `source_direction` |
| rendering/src/ray_tracer.rs | Render.CameraModel, Render.ShadingModel, Render.TracerModel | `power_heuristic`, `balance_heuristic`, `trace_ray`, `trace_all_rays`, `get_local_illumination`, `render`, `render_into`, `intersect_light` | `default` |
| rendering/src/samplers.rs | Render.SamplerModel | `uniform_sample_triangle`, `uniform_sample_horizontal_disc`, `local_to_world`, `sample_cosine_weighted_horizontal_hemisphere`, `sample_uniform_hemisphere`, `uniform_sample_tilted_hemisphere`, `uniform_sample_sphere`, `uniform_sample_tilted_disc` | – |
| rendering/src/scene.rs | Render.BvhModel, Render.FromModelModel, Render.LifeModel, Render.MeshModel, Render.ShadingModel, Render.SkySceneModel, Render.StageModel, Render.TracerModel | `from_simple_model`, `new`, `sample_light_uniform`, `add_perez_sky`, `build_accelerator`, `rebuild_accelerator`, `cast_ray`, `unobstructed_distance`, `push_material`, `push_object` | `count_all_lights` |
| rendering/src/triangle/fallback.rs | Geometry.TriangleModel, Render.BvhModel, Render.ShadingModel | `baricentric_coordinates`, `simple_intersect_triangle_slice` | `intersect_triangle_slice` |
| rendering/src/triangle/mod.rs | Render.BvhModel, Render.LightModel, Render.MaterialModel, Render.MeshModel, Render.ShadingModel | `triangle_area`, `triangle_solid_angle_pdf`, `world_bounds`, `simple_triangle_intersect`, `new_info`, `mesh_triangle`, `mesh_sphere` | `intersect_triangle_slice`, `simple_intersect_triangle_slice` |
| schedule/src/schedule_trait.rs | Weather.MergeModel | types and constants | – |
| src/multiphysics_model.rs | Sim.PhysicsModel, Sim.RunModel, Sim.WiringModel | `module_name`, `allocate_memory`, `new`, `march` | `thermal_model` |
| src/occupant_behaviour.rs | Sim.ControlModel | `control` | `new` |
| src/rhai_script_controller.rs | Sim.CommandModel, Sim.ScriptModel | `from_file`, `control` | `new` |
| src/run_simulation.rs | Sim.CommandModel, Sim.CsvModel, Sim.NamesModel, Sim.PhysicsModel, Sim.RunModel | `pre_process`, `run` | `run_rhai` |
| utils/src/progress_bar.rs | Utils.ProgressModel | `new`, `tic`, `show_progress` | `done` |
| weather/src/current_weather.rs | Weather.LineModel, Weather.RadiationModel | `derive_horizontal_ir`, `interpolate` | – |
| weather/src/epw/ground_temperature.rs | Weather.EpwModel | types and constants | – |
| weather/src/epw/scanner.rs | Weather.EpwModel | `new`, `build_weather_file`, `is_finished`, `scan_element`, `scan_string`, `skip_string`, `scan_number`, `next_is_empty`, `parse_file`, `parse_data_periods`, `parse_location`, `parse_ground_temperature` | `from_file` |
| weather/src/epw/weather_line.rs | Weather.EpwModel | `from`, `date` | – |
| weather/src/lib.rs | Weather.LineModel, Weather.MergeModel, Weather.RadiationModel | `find_weather_line`, `sort_data`, `fill_solar_radiation_data`, `add_assign`, `get_weather_data` | – |
| weather/src/location.rs | Weather.EpwModel, Weather.MergeModel | `get_solar` | – |
| weather/src/solar/mod.rs | Weather.PerezModel, Weather.RadiationModel, Weather.SunModel | `air_mass`, `default`, `new`, `solar_standard_time_difference`, `unwrap_solar_time`, `unwrap_standard_time`, `equation_of_time`, `declination`, `b`, `normal_extraterrestrial_radiation`, `hour_angle`, `sunrise_sunset`, `sun_position_from_standard_time`, `sun_position_from_solar_time`, `sun_position`, `beam_atmosphere_transmittance`, `clear_sky_global_horizontal_rad`, `direct_diffuse_from_cloud_generic`, `estimate_global_horizontal_radiation`, `hourly_clearness_index`, `disc_direct_solar`, `diffuse_fraction`, `perez_direct_normal_radiation`, `aux`, `perez_direct_rad_kt_bin`, `perez_direct_rad_delta_kt_bin`, `perez_direct_rad_zeta_bin`, `perez_direct_rad_w_bin`, `perez_direct_rad_coefs` | – |
| weather/src/solar/perez.rs | Render.SkySceneModel, Weather.PerezModel, Weather.PerezSkyModel | `sky_clearness`, `sky_brightness`, `precipitable_water_content`, `clearness_category`, `direct_illuminance_ratio`, `diffuse_illuminance_ratio`, `calc_params`, `get_sky_func_standard_time`, `gen_sky_vec`, `update_sky_vec` | – |
| weather/src/solar/reinhart_sky.rs | Weather.ReinhartModel | `cone_solid_angle`, `patch_solid_angle`, `bins_in_row`, `row_height`, `n_bins`, `bins_row`, `bin_solid_angle`, `raccum`, `row_altitude`, `sin_altitude_to_row`, `xy_to_bin`, `dir_to_bin`, `bin_dir`, `new` | – |
| weather/src/synthetic_weather.rs | Weather.MergeModel | `default`, `get_weather_data` | – |

Files of which no function is modelled:

* communication/src/lib.rs: `user_error`, `internal_error`
* derive/src/common_path.rs: `path_to_string`, `path_is`, `path_is_option`, `path_is_vec`, `path_is_rc`, `path_is_float`, `path_is_int`, `path_is_bool`, `path_is_string`, `extract_type_from_path`
* derive/src/docs.rs: `get_docs`
* derive/src/lib.rs: `get_attributes`, `object_location`, `object_has_api`, `derive_simulation_state_behaviour`, `derive_input_output`, `object_type`, `derive_group_input_output`, `derive_object_api`, `derive_group_api`, `derive_group_member_api`
* derive/src/object.rs: `new`, `gen_name`, `name`, `gen_new`, `gen_state_getters_setters`, `gen_display`, `gen_docs`, `print_doc`, `gen_group_behaviour`, `gen_group_api`, `gen_group_member_api`, `gen_object_api`
* heat/src/luminaire.rs: `from`
* matrix/src/traits.rs: `zero`, `one`
* model/src/error_msgs.rs: `print_warning_no_module`, `print_error_no_module`, `print_warning`, `print_error`
* model/src/hvac/electric_heater.rs: `wrap`, `heating_setpoint`, `cooling_setpoint`, `target_space`
* model/src/hvac/ideal_heater_cooler.rs: `wrap`, `heating_setpoint`, `cooling_setpoint`, `max_heating_power`, `max_cooling_power`, `target_space`
* model/src/hvac/mod.rs: `fmt`, `heating_setpoint`, `cooling_setpoint`, `max_heating_power`, `max_cooling_power`
* model/src/objects/mod.rs: `as_str`, `default`
* model/src/space.rs: `as_str`
* model/src/substance/gas.rs: `wrap`
* model/src/substance/mod.rs: `fmt`
* model/src/substance/normal.rs: `thermal_diffusivity`, `wrap`
* rendering/src/backward_metropolis/backward_metropolis.rs: `evaluate_anchor`, `render`
* rendering/src/backward_metropolis/mutation.rs: `push`, `prob_of_accept`, `mutate` (×3)
* rendering/src/backward_metropolis/path.rs: `new` (×2), `with_capacity`, `new_from_random_walk`, `push`, `extend`, `eval_from_node`, `eval`, `get_local_illumination`
* rendering/src/camera/camera_trait.rs: `pixel_index`
* rendering/src/camera/film.rs: `aspect_ratio`
* rendering/src/lights.rs: `is_delta_light`
* rendering/src/material/light.rs: `id`, `colour`
* rendering/src/rand.rs: `get_rng`
* rendering/src/ray.rs: `default`, `transform`, `direction`, `origin`, `get_triad`, `get_n_ambient_samples`
* schedule/src/constant.rs: `get`, `new`
* schedule/src/empty_schedule.rs: `get`
* src/void_control.rs: `control`
* test_models/src/lib.rs: `default`, `add_luminaire`, `add_heater`, `get_single_zone_test_building`
* weather/src/epw/weather.rs: `default`, `from_file`, `from`
