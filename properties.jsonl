{"id": "C01", "title": "Day-of-year round trip", "statement": "Converting a valid calendar date (month 1-12, day within the month, hour in [0,24)) to its fractional day of the year and back gives the same date, and converting any fractional day n with 0 <= n < 365 to a date gives a valid date whose day of the year is n.  Values outside [0,365) are rejected (panic).", "quantifier": "every valid date with an arbitrary fractional hour, and every n in [0,365)", "why_tests_cant": "the hour is continuous, so the domain is infinite; month-boundary rounding cannot be sampled exhaustively", "anchors": ["calendar/src/date.rs: Date::day_of_year", "calendar/src/date.rs: Date::from_day_of_year"]}
{"id": "C02", "title": "Dates are ordered chronologically", "statement": "Comparing two valid dates with <, ==, > agrees with comparing their position in the year; the comparison is a total order; subtracting two dates gives exactly the difference of their positions, so d1 - d2 > 0 iff d1 is later.", "quantifier": "all pairs (triples) of valid dates", "why_tests_cant": "a relation over pairs of an infinite set", "anchors": ["calendar/src/date.rs: impl Ord for Date", "calendar/src/date.rs: impl Sub for Date", "calendar/src/date.rs: Date::is_earlier"]}
{"id": "C03", "title": "Advancing a date moves it by exactly the requested time", "statement": "add_days(n), add_hours(h), add_minutes(m), add_seconds(s) turn a valid date into a valid date whose position in the 365-day year is the old one plus the requested amount, modulo 365 days.", "quantifier": "every valid date, every non-negative amount of time", "why_tests_cant": "unbounded amounts; the u8 arithmetic misbehaves only for particular day+amount combinations (day + n >= 256)", "anchors": ["calendar/src/date.rs: Date::add_days", "calendar/src/date.rs: Date::add_hours", "calendar/src/date.rs: Date::add_seconds", "calendar/src/date.rs: Date::add_minutes"]}
{"id": "C04", "title": "Iterating a period yields consecutive timesteps inside the period and stops", "statement": "For a period with a positive timestep, the iterator yields start+dt, start+2dt, ... , every yielded date lies inside the period, and the iteration ends after finitely many steps with the last yielded date less than one timestep from the end.", "quantifier": "every start/end pair (also through the new year), every dt > 0 and every number of calls to next", "why_tests_cant": "a termination claim plus an invariant of every step of an arbitrarily long iteration", "anchors": ["calendar/src/period.rs: Period::new", "calendar/src/period.rs: Iterator for Period::next"]}
{"id": "C05", "title": "Membership in a period is membership in the cyclic interval", "statement": "Period::contains(d) is true exactly when travelling forward in time from the start of the period one meets d no later than the end of the period (wrapping around the new year when start > end).", "quantifier": "every start, end and date", "why_tests_cant": "infinite domain, two wrap-around regimes", "anchors": ["calendar/src/period.rs: Period::contains"]}
{"id": "C06", "title": "Interpolating between dates", "statement": "Date::interpolate(a, b, x) with 0 <= x <= 1 is a valid date located at fraction x of the forward path from a to b (through the new year when b is earlier in the year), never panics, gives a at x = 0 and b at x = 1, and is monotone in x along that path.", "quantifier": "all pairs of valid dates and all x in [0,1]", "why_tests_cant": "continuous parameters", "anchors": ["calendar/src/date.rs: Date::interpolate"]}
{"id": "C07", "title": "A dense matrix is a total map from in-range coordinates to values", "statement": "get after set returns the value written at that coordinate and the old value at every other one; add_to_element and scale_element change exactly one entry; any out-of-range access is reported as an error and leaves the matrix unchanged; new/eye/diag produce exactly the advertised entries; concat_rows stacks the rows of the second matrix under the first.", "quantifier": "all sizes, all coordinates, all sequences of operations", "why_tests_cant": "needs injectivity of the row-major layout for every size and every history of writes", "anchors": ["matrix/src/generic_matrix.rs: get, set, add_to_element, scale_element, new, eye, diag, from_data, concat_rows"]}
{"id": "C08", "title": "Matrix product, sum and scaling are the mathematical ones", "statement": "The product succeeds exactly when the inner dimensions agree (and the destination has the right size) and its (r,c) entry is sum_k A(r,k) B(k,c); sum/difference/scaling are entrywise; eye is neutral for the product and the product is associative; otherwise an error is returned.", "quantifier": "all matrices of all sizes over any commutative ring", "why_tests_cant": "quantifies over unbounded dimensions", "anchors": ["matrix/src/generic_matrix.rs: prod_into, add_into, sub_into, scale_into"]}
{"id": "C09", "title": "The n-diagonal product shortcut equals the full product", "statement": "For odd n >= 1, if the left matrix has no non-zero entry at distance more than (n-1)/2 from the main diagonal, prod_n_diag_into and prod_tri_diag_into give the same result as the full product.", "quantifier": "all sizes, all odd n, all banded left matrices, all right matrices", "why_tests_cant": "unbounded dimensions and band widths", "anchors": ["matrix/src/generic_matrix.rs: prod_n_diag_into, prod_tri_diag_into, from_prod_n_diag"]}
{"id": "C10", "title": "The compact n-diagonal matrix behaves as the dense banded matrix it stands for", "statement": "For every shape at least as wide as the half-band, reading returns the last value written on that coordinate (zero off the band), writes off the band or out of range are errors that change nothing, different band coordinates never share storage, scaling multiplies every entry, and column_prod_into computes the matrix-vector product.  A freshly created matrix contains the requested value on every band entry.", "quantifier": "all odd N, all shapes, all coordinates, all histories of writes", "why_tests_cant": "storage is a packed vector with row-dependent offsets; aliasing of two coordinates must be excluded for all shapes", "anchors": ["matrix/src/n_diag_generic_matrix.rs: NDiagGenericMatrix::{new,index,get,set,add_to_element,scale_element,column_prod_into,scale_into,mul_assign}"]}
{"id": "C11", "title": "Banded Gaussian elimination returns a solution of the system", "statement": "When n_diag_gaussian / mut_n_diag_gaussian succeeds on a square n-diagonal matrix A and right hand side b, the returned x satisfies A x = b (in exact arithmetic, when no non-zero intermediate entry is below the 1e-26 threshold); when it fails it is because a pivot vanished.", "quantifier": "all n, all sizes, all banded matrices, all right hand sides", "why_tests_cant": "unbounded dimension; needs an invariant over both elimination sweeps", "anchors": ["matrix/src/matrix.rs: n_diag_gaussian, mut_n_diag_gaussian", "matrix/src/n_diag_matrix.rs: mut_gaussian"]}
{"id": "C12", "title": "Gauss-Seidel only claims convergence when the iterate is within tolerance", "statement": "gauss_seidel returns Ok only if one more Gauss-Seidel sweep would move every component of the returned vector by less than the tolerance; it performs at most the requested number of sweeps; dimension mismatches are errors and leave x unchanged; an exact solution is a fixed point.", "quantifier": "all sizes, matrices, right hand sides, starting points and tolerances", "why_tests_cant": "unbounded dimension and iteration count", "anchors": ["matrix/src/matrix.rs: gauss_seidel"]}
{"id": "C13", "title": "A polynomial built coefficient by coefficient evaluates to sum c_i x^i", "statement": "After pushing c_0..c_{k-1} (k <= 12) onto an empty polynomial, len is k and eval(x) is sum_i c_i x^i; the 13th push panics; unused slots never influence the result.", "quantifier": "all coefficient sequences and all x", "why_tests_cant": "infinite domain", "anchors": ["polynomial/src/lib.rs: Polynomial::{new,push,eval,len,is_empty}", "polynomial/src/lib.rs: poly!"]}
{"id": "C14", "title": "Progress bar counts every tick and never goes backwards", "statement": "After k calls to tic (from any interleaving of threads) the counter is exactly k and the recorded progress never decreases; when ticks do not overlap the recorded progress never exceeds 100 and is within 2 points of the true percentage.", "quantifier": "all totals, all numbers of threads and all interleavings of the atomic steps", "why_tests_cant": "thread schedules cannot be enumerated by tests", "anchors": ["utils/src/progress_bar.rs: ProgressBar::tic"]}
{"id": "C15", "title": "Simulation state indices are stable and unique", "statement": "Every successful push into the state header returns the position where that element (and its default value) can be found in the header and in the taken state vector for the rest of the building of the model, two pushes never return the same index, and a rejected push changes neither the positions nor the contents already registered.", "quantifier": "all sequences of pushes", "why_tests_cant": "invariant over all histories", "anchors": ["model/src/simulation_state.rs: SimulationStateHeader::push, take_values, len"]}
{"id": "C16", "title": "State layout is personal, then operational, then physical; partial copies touch only their section", "statement": "In every reachable header the personal elements precede the operational ones, which precede the physical ones, and the section counters equal the number of elements of each class; copy_physical_state, copy_operational_state and copy_individual_state overwrite exactly the entries of their class and leave all others unchanged.", "quantifier": "all sequences of pushes and all pairs of state vectors", "why_tests_cant": "invariant over all histories; slicing bounds for all layouts", "anchors": ["model/src/simulation_state.rs: SimulationStateHeader::{push,copy_physical_state,copy_operational_state,copy_individual_state,copy_from}", "model/src/simulation_state_element.rs: is_personal, is_operational, is_physical"]}
{"id": "C17", "title": "Looking an object up by name returns the first object added with that name", "statement": "After any sequence of additions, looking up a name returns the earliest added object carrying that name, and fails exactly when none was added; adding other objects never changes what an existing name resolves to.", "quantifier": "all sequences of additions and all names", "why_tests_cant": "invariant over all histories", "anchors": ["model/src/model.rs: add_space/get_space, add_material/get_material, ... "]}
{"id": "C18", "title": "A rejected addition leaves the model unchanged", "statement": "When adding a surface or a fenestration fails (missing construction, invalid boundary, missing parent surface, ...), neither the model nor the simulation state header is modified, so a caller may report the error and continue.", "quantifier": "all models and all objects offered to add_surface / add_fenestration", "why_tests_cant": "atomicity over every failure point", "anchors": ["model/src/model.rs: add_fenestration, add_surface", "model/src/simulation_state.rs: push"]}
{"id": "C19", "title": "Scanning a SIMPLE file finds exactly the objects written in it", "statement": "For a well-formed file (a sequence of `Name { balanced body }` items separated by white space and comments) the scanner yields exactly those names and bodies, in order; the layout of white space and comments between items is irrelevant; scanning always terminates.", "quantifier": "all source texts", "why_tests_cant": "unbounded inputs and nesting depth; termination", "anchors": ["model/src/scanner.rs: SimpleScanner::{skip_white_space,identifier,object,parse_model}"]}
{"id": "C20", "title": "Set-points are reported under the name of the system that has them", "statement": "The heating/cooling set-points reported under a name are those of the last HVAC in the model with that name (an electric heater never has a cooling set-point); names that no HVAC has are absent.", "quantifier": "all models", "why_tests_cant": "unbounded numbers of systems, including duplicate names", "anchors": ["model/src/model.rs: get_hvac_setpoints"]}
{"id": "C21", "title": "Every normal vector has an orientation, and opposite normals have opposite orientations", "statement": "Classifying the orientation of a surface never panics for a non-zero normal, horizontal surfaces are detected exactly when the angle with the vertical is at most 45 degrees, each compass sector covers exactly 45 degrees, and reversing the normal gives the opposite compass sector.", "quantifier": "all non-zero normal vectors", "why_tests_cant": "continuous domain; the code ends with unreachable!()", "anchors": ["model/src/surface_trait.rs: get_orientation"]}
{"id": "C22", "title": "Every row of the results file has exactly the columns announced in its header", "statement": "For any selection of requested outputs, the header line and every data line have the same number of comma separated fields, one per reported output plus the date, in the order of the requested outputs.", "quantifier": "all models, all lists of requested outputs (known or unknown), any number of timesteps", "why_tests_cant": "all lists of outputs; the separator logic depends on the number of requested instead of reported outputs", "anchors": ["src/run_simulation.rs: pre_process, run"]}
{"id": "C23", "title": "Thermostat decision logic", "statement": "At every step, a heater is on with its design power exactly when the temperature of its space is below the heating set-point; an ideal heater/cooler heats when below the heating set-point, cools when above the cooling set-point, is off in between, and never heats and cools simultaneously.", "quantifier": "all models, all set-points, all temperatures", "why_tests_cant": "continuous inputs, all combinations of set-points", "anchors": ["src/occupant_behaviour.rs"]}
{"id": "C24", "title": "Solar energy on a glazing system is conserved", "statement": "For any sequence of glazing layers (each with tau + rho <= 1 and inter-reflection product < 1) the absorbed fractions of all the layers plus the transmitted plus the reflected fraction add up to 1, every fraction is within [0,1], and combining layers is associative so the grouping used does not matter.", "quantifier": "all lists of layers", "why_tests_cant": "unbounded number of layers, continuous properties", "anchors": ["heat/src/glazing.rs: Glazing::{combined_tau,combined_rho_front,combined_rho_back,combine,combine_layers,combined_alphas,alphas}"]}
{"id": "C25", "title": "Discretising a construction preserves thermal mass and thermal resistance", "statement": "For every construction accepted by the discretisation, the number of nodes is one plus the number of elements, the total nodal mass is sum(rho*cp*thickness) over the massive layers, and the sum of the resistances of the nodes is the sum of the thermal resistances of the layers.", "quantifier": "all constructions, all numbers of elements per layer", "why_tests_cant": "unbounded numbers of layers and elements", "anchors": ["heat/src/discretization.rs: Discretization::build, r_value"]}
{"id": "C26", "title": "Massive and massless chunks partition the nodes of a construction", "statement": "The chunks with mass and the chunks without mass are non-empty contiguous ranges which are pairwise disjoint, maximal, in increasing order, and together cover every node exactly once.", "quantifier": "all constructions (all assignments of masses to nodes)", "why_tests_cant": "unbounded node count", "anchors": ["heat/src/discretization.rs: chunk_segments, get_chunks"]}
{"id": "C27", "title": "The chosen element count and time step satisfy the stability criterion", "statement": "discretize_construction returns a timestep subdivision and number of elements per layer such that every layer's thickness is covered by elements no smaller than the minimum stable size, and the eigenvalue bounds asserted in the code always hold.", "quantifier": "all constructions, all maximum dx, all time steps", "why_tests_cant": "continuous inputs; a debug assertion protects it at run time only in debug builds", "anchors": ["heat/src/discretization.rs: min_dx, nsegments, discretize_construction"]}
{"id": "C28", "title": "Conduction matrix: symmetric, conservative, and at rest in equilibrium", "statement": "The matrix K produced for any range of nodes is symmetric and tridiagonal, its off-diagonal entries are non-negative, its row sums are minus the conductances to the environment or to the neighbouring nodes, and if the wall is at the temperature of its surroundings and there is no radiation then K T + q = 0.", "quantifier": "all constructions, all chunks, all boundary conditions", "why_tests_cant": "unbounded node counts", "anchors": ["heat/src/discretization.rs: get_k_q"]}
{"id": "C29", "title": "Runge-Kutta step is exact to fourth order and preserves equilibrium", "statement": "One rk4 step maps T to the fourth-order Taylor polynomial of the solution of T' = K T + q: in particular it leaves every equilibrium (K T + q = 0) unchanged and is affine in T.", "quantifier": "all matrices, all sizes, all states", "why_tests_cant": "unbounded dimension", "anchors": ["heat/src/surface.rs: rk4"]}
{"id": "C30", "title": "Zone temperature moves monotonically towards equilibrium", "statement": "The predicted future (and mean) temperature of a zone always lies between its current temperature and the equilibrium temperature, equals the current temperature when the elapsed time is zero or the zone is already in equilibrium, and advancing t1 then t2 equals advancing t1+t2.", "quantifier": "all zones, all heat balance coefficients, all time steps", "why_tests_cant": "continuous inputs", "anchors": ["heat/src/heat_model.rs: estimate_zones_future_temperatures, estimate_zones_mean_future_temperatures"]}
{"id": "C31", "title": "Convection coefficients are total and never below the minimum", "statement": "The TARP convection coefficients are defined (no panic) for every temperature difference, tilt, wind speed and roughness index that the model can hold, and are never less than the documented minimum.", "quantifier": "all temperatures, tilts, wind speeds and roughness classes", "why_tests_cant": "continuous inputs; code contains unreachable!() and array indexing", "anchors": ["heat/src/convection.rs: ConvectionParams::{get_tarp_natural_convection_coefficient, get_tarp_convection_coefficient}"]}
{"id": "C32", "title": "Cavity heat transfer correlations never panic", "statement": "The Nusselt number correlations used for gas cavities are defined for every non-negative Rayleigh number and every tilt between 0 and 180 degrees.", "quantifier": "all Rayleigh numbers and tilts", "why_tests_cant": "a single point of a continuous domain reaches unreachable!()", "anchors": ["heat/src/gas.rs: Gas::nusselt, nu_90, nu_0_60, nu_60, nu_60_90"]}
{"id": "C33", "title": "Infiltration rates are non-negative and symmetric in the temperature difference", "statement": "For non-negative coefficients the design-flow-rate, BLAST, DOE-2 and effective-leakage-area infiltration models give a non-negative flow that depends only on |T_in - T_out| and the wind speed, and is monotone in both.", "quantifier": "all temperatures, wind speeds and coefficients", "why_tests_cant": "continuous inputs", "anchors": ["air/src/eplus.rs: design_flow_rate, blast_design_flow_rate, doe2_design_flow_rate, effective_leakage_area"]}
{"id": "C34", "title": "Weather at any moment is the linear interpolation between the surrounding records", "statement": "For weather data sorted by date, asking for the weather at date d returns the convex combination of the last record not later than d and the next one (cyclically around the new year) weighted by elapsed time; every reported magnitude lies between the two records, and a request at the date of a record gives that record.", "quantifier": "all sorted data sets, all dates", "why_tests_cant": "all data sets and dates including both ends of the year", "anchors": ["weather/src/lib.rs: Weather::find_weather_line", "weather/src/current_weather.rs: CurrentWeather::interpolate"]}
{"id": "C35", "title": "EPW parsing reads each field of the line it is in, with physical values in their documented range", "statement": "Elements of a line are the maximal runs between commas/newlines, they are read in order with the line counter advanced once per newline, and the wind direction parsed from the file is the one in the file whenever it lies within 0-360.", "quantifier": "all EPW texts", "why_tests_cant": "unbounded inputs", "anchors": ["weather/src/epw_weather/scanner.rs", "weather/src/epw_weather/weather_line.rs"]}
{"id": "C36", "title": "Reinhart sky subdivision: bin numbering is a bijection", "statement": "For every subdivision factor mf >= 1 the sky has 144 mf^2 + 2 bins; every direction is assigned a bin below that number; every bin above the ground belongs to exactly one row and azimuth slot; and the row recovered from a bin number is the row used to number it.", "quantifier": "all mf, all directions, all bins", "why_tests_cant": "unbounded mf; continuous directions", "anchors": ["weather/src/solar/reinhart_sky.rs: ReinhartSky::{new,n_bins,bins_row,raccum,dir_to_bin,bins_in_row}"]}
{"id": "C37", "title": "Reinhart sky subdivision: solid angles cover the sphere", "statement": "For every mf the solid angles of all the bins (ground included) add up to 4*pi, and those of the sky to 2*pi.", "quantifier": "all mf", "why_tests_cant": "unbounded number of bins, transcendental functions", "anchors": ["weather/src/solar/reinhart_sky.rs: patch_solid_angle, cone_solid_angle, bin_solid_angle"]}
{"id": "C38", "title": "Perez sky and irradiance categories are total, in range and monotone", "statement": "The clearness category and the bins used to index the coefficient tables are defined for every real input, always within the bounds of the tables, and monotone in the input.", "quantifier": "all real inputs", "why_tests_cant": "continuous domain; indexes into fixed-size tables", "anchors": ["weather/src/solar/perez.rs: clearness_category", "weather/src/solar/mod.rs: kt_bin, delta_kt_bin, zeta_bin, w_bin, perez_direct_rad_coefs"]}
{"id": "C39", "title": "The sky vector accounts for exactly the direct solar energy", "statement": "The radiance added to the four sky bins nearest to the sun, weighted by their solid angles, adds up to the direct normal irradiance given, and computing the sky vector twice for the same inputs gives the same vector.", "quantifier": "all sun positions, all irradiances, all mf", "why_tests_cant": "continuous inputs and all bins", "anchors": ["weather/src/solar/perez.rs: gen_sky_vec, update_sky_vec"]}
{"id": "C40", "title": "Transforms and their inverses cancel", "statement": "For every transform built by translations, scalings and rotations, transforming a point, vector or ray and then inverse-transforming gives the original back, also after composing transforms with *=; composition applies the transforms in order.", "quantifier": "all compositions of all primitive transforms, all points and vectors", "why_tests_cant": "all products of matrices", "anchors": ["geometry/src/transform.rs: Transform::{new,translate,scale,rotate_x,rotate_y,rotate_z,mul_assign,transform_pt,inv_transform_pt,transform_vec,transform_normal}"]}
{"id": "C41", "title": "Transformed normals stay perpendicular to transformed tangents", "statement": "If a normal is perpendicular to a tangent vector, then transform_normal(normal) is perpendicular to transform_vec(tangent); the transformed bounding box contains the transform of every point of the original box.", "quantifier": "all affine transforms, normals, tangents, boxes and points", "why_tests_cant": "continuous domain", "anchors": ["geometry/src/transform.rs: transform_normal, transform_bbox, inv_transform_bbox"]}
{"id": "C42", "title": "Bounding boxes: union is the least box, intersection the greatest, tests agree with membership", "statement": "The union of two boxes (or a box and a point) is the smallest box containing both; the intersection contains exactly the common points; overlaps is true iff a common point exists; point_inside is true iff the point is a member; surface area is monotone.", "quantifier": "all boxes and points", "why_tests_cant": "continuous domain", "anchors": ["geometry/src/bbox3d.rs"]}
{"id": "C43", "title": "The ray/box test never misses a box that the ray crosses", "statement": "If a point of the ray at a positive distance lies in the box, BBox3D::intersect returns true.", "quantifier": "all boxes, all rays, including axis-parallel rays and rays starting inside or on a face", "why_tests_cant": "continuous domain with IEEE special values on the boundary", "anchors": ["geometry/src/bbox3d.rs: BBox3D::intersect"]}
{"id": "C44", "title": "Ray/triangle intersection reports only points of the triangle on the ray", "statement": "Whenever a ray/triangle intersection is reported, the reported point lies on the ray at positive distance and inside the triangle (up to the documented tolerance), and barycentric coordinates reconstruct the point; whenever the ray properly crosses the interior a hit is reported.", "quantifier": "all triangles and rays", "why_tests_cant": "continuous domain", "anchors": ["geometry/src/triangle3d.rs: Triangle3D::intersect, intersect_triangle", "rendering/src/triangle/fallback.rs: baricentric_coordinates"]}
{"id": "C45", "title": "Point-in-triangle classification is a partition consistent with barycentric coordinates", "statement": "test_point classifies every point of the plane of the triangle as exactly one of vertex, edge, inside, outside, according to the signs of its barycentric coordinates.", "quantifier": "all non-degenerate triangles and points", "why_tests_cant": "continuous domain", "anchors": ["geometry/src/triangle3d.rs: test_point"]}
{"id": "C46", "title": "Segment intersection parameters locate a common point", "statement": "When two segments are reported to intersect at parameters (ta, tb), the points at those parameters coincide; the test is symmetric in the sense that swapping the segments swaps the parameters; parallel segments are reported as non-intersecting.", "quantifier": "all pairs of coplanar segments", "why_tests_cant": "continuous domain", "anchors": ["geometry/src/segment3d.rs: get_intersection_pt, intersect"]}
{"id": "C47", "title": "Loop area is geometric", "statement": "The area of a closed loop is independent of the starting vertex, of translation, and of traversal direction; reversing the loop reverses the normal; area is never negative for a loop that was closed successfully.", "quantifier": "all closed loops with any number of vertices", "why_tests_cant": "unbounded vertex count", "anchors": ["geometry/src/loop3d.rs: set_area, reverse, close, area"]}
{"id": "C48", "title": "Open/closed protocol of loops", "statement": "Vertices can be added only while the loop is open; area, perimeter and centroid are available only when the loop is closed; a failed push or close leaves the loop usable and unchanged; a closed loop has at least three vertices.", "quantifier": "all sequences of push / close / open", "why_tests_cant": "all histories", "anchors": ["geometry/src/loop3d.rs: push, push_collinear, close, open, area, valid_to_add"]}
{"id": "C49", "title": "Polygon area is the outer area minus the holes, and bridging the holes visits every vertex", "statement": "After any sequence of successful hole cuts the polygon area is the outer area minus the sum of the hole areas, a failed cut changes nothing, and the single loop that represents the polygon visits every vertex of each hole exactly once before returning to the bridge.", "quantifier": "all sequences of holes, all numbers of vertices per hole", "why_tests_cant": "all histories; index arithmetic modulo the vertex count", "anchors": ["geometry/src/polygon3d.rs: cut_hole, get_closed_loop, area"]}
{"id": "C50", "title": "Triangulating a polygon yields n-2 triangles with the same total area", "statement": "When triangulation of a polygon succeeds, the number of triangles is the number of vertices of its bridged loop minus two, every triangle vertex is a loop vertex, and the signed areas of the triangles add up to that of the loop; triangulation always terminates.", "quantifier": "all polygons", "why_tests_cant": "unbounded vertex count", "anchors": ["geometry/src/triangulation3d.rs: Triangulation3D::try_from(&Polygon3D)"]}
{"id": "C51", "title": "Mesh editing keeps the triangulation consistent", "statement": "split_edge, split_triangle and flip_diagonal conserve the total area; push and invalidate keep the valid-triangle counter equal to the number of valid triangles; neighbour links are symmetric.", "quantifier": "all sequences of mesh operations", "why_tests_cant": "all histories", "anchors": ["geometry/src/triangulation3d.rs: push, invalidate, mark_as_neighbours, flip_diagonal, split_edge, split_triangle"]}
{"id": "C52", "title": "Building the acceleration structure loses no triangle and terminates", "statement": "Building the BVH always terminates; the list of triangles after the build is a permutation of the list before; every leaf's range is non-empty, leaves' ranges tile the triangle array, and every triangle lies in the bounding box of all its ancestors.", "quantifier": "all scenes", "why_tests_cant": "unbounded scenes, all centroid coincidences", "anchors": ["rendering/src/bvh.rs: BoundingVolumeTree::new, recursive_build"]}
{"id": "C53", "title": "Tracing through the acceleration structure equals brute force", "statement": "The closest hit (and any-hit test) found by traversing the flattened tree is the one found by testing every triangle of the scene, for every ray, provided that the box test is conservative and the stack is deep enough.", "quantifier": "all scenes, all rays", "why_tests_cant": "unbounded scenes", "anchors": ["rendering/src/bvh.rs: flatten_node, intersect, unobstructed_distance", "rendering/src/triangle/fallback.rs: simple_intersect_triangle_slice"]}
{"id": "C54", "title": "RGBE pixels decode to the encoded colour within quantisation error", "statement": "Decoding an encoded colour gives each channel within one part in 128 of the brightest channel below the original and never above it; black stays black; encoding a decoded colour is stable.", "quantifier": "all non-negative colours", "why_tests_cant": "continuous domain", "anchors": ["rendering/src/image.rs: colour_to_rgbe, rgbe_to_colour, rusty_frexp"]}
{"id": "C55", "title": "Saved images are read back with the same dimensions and pixel order", "statement": "Reading a saved HDR image gives the same width, height and number of pixels, in the same order.", "quantifier": "all image sizes and contents", "why_tests_cant": "unbounded sizes", "anchors": ["rendering/src/image.rs: save_hdre, from_file, Index"]}
{"id": "C56", "title": "False-colour mapping is total, clamps and interpolates", "statement": "For max > min and any colour map with at least two entries the mapping never panics, values at or below min map to the first colour, at or above max to the last, and every intermediate value maps to a convex combination of two consecutive colours.", "quantifier": "all values, limits and colour maps", "why_tests_cant": "continuous domain; code ends with unreachable!()", "anchors": ["rendering/src/colourmap/mod.rs: map_linear_colour"]}
{"id": "C57", "title": "Samplers generate points in the sampled set", "statement": "Uniform triangle samples lie in the triangle; hemisphere samples are unit vectors on the right side; disc samples lie in the disc.", "quantifier": "all random numbers in [0,1) and all triangles", "why_tests_cant": "continuous domain", "anchors": ["rendering/src/samplers.rs"]}
{"id": "C58", "title": "View factors and irradiance are conserved", "statement": "The sky, ground and air view factors of a surface add up to the fraction of unobstructed rays, each is within [0,1], and incident irradiance reported for a surface is never negative.", "quantifier": "all scenes and numbers of rays", "why_tests_cant": "unbounded scenes", "anchors": ["light/src/solar_surface.rs: calc_view_factors", "light/src/solar_model.rs: update_solar_radiation"]}
{"id": "C59", "title": "Quadratic solver returns exactly the real roots in order", "statement": "solve_quadratic returns the two real roots in increasing order when they exist (both equal for a line), and None exactly when there is no real root.", "quantifier": "all real coefficients", "why_tests_cant": "continuous domain", "anchors": ["geometry/src/utils.rs: solve_quadratic"]}
{"id": "C60", "title": "Floor areas per space add up", "statement": "The floor area reported for each space is the sum of the net areas of the ground, interior and exterior floors whose upper side is that space, spaces without floors have area zero, names that are not spaces are absent, the reported total is the sum over the spaces, and the computation does not panic on a model whose surfaces were accepted by add_surface.", "quantifier": "all models: any number of spaces and surfaces, any geometry", "why_tests_cant": "unbounded numbers of spaces and surfaces", "anchors": ["model/src/model.rs: Model::get_space_sizes, add_surface"]}
{"id": "C61", "title": "Operable objects are wired to their own simulation state element", "statement": "After any history of additions, every fenestration, HVAC system and luminaire of the model holds the position in the simulation state header of its own element (open fraction or power consumption), so no two objects ever share a position.", "quantifier": "all histories of additions, accepted and rejected", "why_tests_cant": "invariant over all histories", "anchors": ["model/src/model.rs: add_fenestration, add_hvac, add_luminaire", "model/src/simulation_state.rs: push"]}
{"id": "C62", "title": "A fenestration cuts its parent surface and takes its boundaries", "statement": "An accepted fenestration that names a parent surface has been cut as a hole in the first surface of that name and in no other, no other attribute of any surface changes, and the fenestration takes the boundaries of the parent, swapped when it faces the opposite direction.", "quantifier": "all models, fenestrations and geometries", "why_tests_cant": "must hold for every model and position of the parent", "anchors": ["model/src/model.rs: add_fenestration"]}
{"id": "C63", "title": "The wind direction reaches the models unchanged", "statement": "The wind direction that the heat and air flow models use at a time step is the direction that the weather gives for that time, in one unit of angle: converting the weather to the models' unit happens exactly once.", "quantifier": "all wind directions and all times", "why_tests_cant": "continuous inputs; a test at zero degrees cannot see a conversion done twice", "anchors": ["weather/src/epw_weather.rs: wind_direction", "heat/src/heat_model.rs: march"]}
{"id": "C64", "title": "Vector and point utilities satisfy their geometric definitions", "statement": "A normalised vector has length one and the same direction; get_perpendicular returns a unit vector exactly perpendicular to the vector given; the squared distance to a line is the least squared distance to its points; the projection into a plane lies in the plane and is the nearest of its points; is_parallel holds exactly for parallel vectors, and is_collinear exactly for collinear points.", "quantifier": "all vectors and points of real numbers", "why_tests_cant": "continuous three-dimensional inputs", "anchors": ["geometry/src/vector3d.rs: normalize, get_perpendicular, is_parallel, is_same_direction", "geometry/src/point3d.rs: is_collinear, squared_distance_to_line, project_into_plane"]}
{"id": "C65", "title": "The diffuse fraction is a fraction", "statement": "The fraction of the global irradiance taken as diffuse lies between zero and one for every clearness index that is not negative, so neither the direct nor the diffuse part derived from it is negative.", "quantifier": "all clearness indices", "why_tests_cant": "continuous input, piecewise polynomial", "anchors": ["weather/src/solar/mod.rs: diffuse_fraction"]}
{"id": "C66", "title": "The sun position is the astronomical one", "statement": "For every time and every latitude except the poles, the sun position is a unit vector equal to the direction given by spherical astronomy from the latitude, the declination and the hour angle, up to the documented rounding to the vertical near the zenith, and there is no sun position exactly when the sun is below the horizon; the sun rises east before solar noon and sets west after it.", "quantifier": "all times, latitudes and hour angles", "why_tests_cant": "continuous inputs; polar days and nights", "anchors": ["weather/src/solar/mod.rs: sun_position, sunrise_sunset, hour_angle, declination"]}
{"id": "C67", "title": "The measures of a triangle are the geometric ones", "statement": "For every three points accepted by the constructor, the triangle is not degenerate; its area is half the length of the cross product of two sides, its circumcentre is at the circumradius from the three vertices, its centroid is their mean, its aspect ratio is the circumradius over the shortest side, and its normal is the unit vector that sees the vertices counterclockwise. Three points that are equal or collinear within the tolerance are refused.", "quantifier": "all triples of points", "why_tests_cant": "continuous inputs; Heron's formula and the circumcentre formula must agree with the geometry for every shape, not for a few right triangles", "anchors": ["geometry/src/triangle3d.rs: new, set_normal, set_area, circumradius, circumcenter, aspect_ratio, centroid"]}
{"id": "C68", "title": "The test of points in a loop tells the inside from the outside", "statement": "For every closed loop and every point, the test answers yes for the points of its plane that are within the loop or on its boundary and no for the others, and it refuses an open loop.", "quantifier": "all closed loops, all points", "why_tests_cant": "continuous inputs, unbounded vertex count; the answer depends on where the first side is", "anchors": ["geometry/src/loop3d.rs: test_point, is_coplanar"]}
{"id": "C69", "title": "The operations on numbers with an error give intervals which contain the results", "statement": "For every two numbers that are known to be between bounds, with bounds that are finite f64 numbers, the sum, difference, opposite, product, quotient and square root that the interval type computes contain the result of the operation on every pair of real numbers within the bounds, whatever is rounded.", "quantifier": "all intervals with finite ends, all real numbers in them, every rounding including overflow and subnormal numbers", "why_tests_cant": "2^256 pairs of intervals; failures of containment by one unit in the last place are below the tolerances of tests", "anchors": ["geometry/src/round_error.rs: ApproxFloat, next_float_up, next_float_down, max_min, solve_quadratic"]}
{"id": "C70", "title": "A ray meets a sphere where the geometry says", "statement": "For every sphere, or part of a sphere between two heights and up to an angle, and for every ray in general position (not through the poles, not starting exactly on the sphere), the intersection returned is the first point of that part which the ray meets after leaving its origin, and there is none exactly when the ray does not meet it; the normal returned is perpendicular to the sphere there and looks towards the ray; the box returned contains the sphere.", "quantifier": "all radii, centres, heights, angles and rays", "why_tests_cant": "continuous inputs; poles, clipped first hits with visible second hits and the seam of the angle are measure-zero or rare for sampled rays", "anchors": ["geometry/src/sphere3d.rs: new_partial, approx_basic_intersection, intersection_info, intersect, bounds", "geometry/src/intersection.rs: IntersectionInfo"]}
{"id": "C71", "title": "A ray meets a cylinder where the geometry says", "statement": "For every cylinder between two points, or part of it up to an angle, and for every ray in general position (not parallel to the axis, not starting exactly on it), the intersection returned is the first point of that part which the ray meets after leaving its origin, and there is none exactly when the ray does not meet it; the normal is perpendicular to the surface, looks towards the ray, and the side is the front from outside, as for spheres; the box contains the cylinder.", "quantifier": "all pairs of points, radii, angles and rays", "why_tests_cant": "continuous inputs; the tests only use cylinders along an axis", "anchors": ["geometry/src/cylinder3d.rs: new, new_partial, basic_intersection, intersection_info, intersect, bounds"]}
{"id": "C72", "title": "A ray meets planes and disks where the geometry says", "statement": "For every plane and every ray that is not parallel to it, the number returned is that of the only point of the ray in the plane, and nothing is returned exactly when that point is behind. For every disk, ring or sector of them, the intersection returned is the point of that part which the ray meets after leaving its origin, and there is none exactly when it does not meet it.", "quantifier": "all points, normals, radii, zeros of the angle, angles and rays", "why_tests_cant": "continuous inputs: the zero of the angle is projected onto the plane and the direction of turning depends on the normal", "anchors": ["geometry/src/plane3d.rs: new, test_point, intersect", "geometry/src/disk3d.rs: new_detailed, basic_intersection"]}
{"id": "C73", "title": "The density of the directions towards a light is the inverse of its solid angle", "statement": "For every light and every point from which it is seen: a direction sampled towards the light meets it; the directions that meet a distant source are those within half of its angle; and the density reported for spheres and distant sources is the inverse of the solid angle of the directions that meet them, and for triangles the density of the directions to points spread evenly over the triangle, wherever the origin of the coordinates is.", "quantifier": "all spheres, triangles, distant sources, points and random numbers", "why_tests_cant": "Monte Carlo estimates hide a wrong density behind noise; the tests of the crate compare images by eye or use scenes near the origin", "anchors": ["rendering/src/primitive_samplers.rs", "rendering/src/primitive.rs: solid_angle_pdf, sample_direction", "rendering/src/triangle/mod.rs: triangle_area, triangle_solid_angle_pdf", "geometry/src/distant_source3d.rs: new, simple_intersect_local_ray"]}
{"id": "C74", "title": "Mirrors, dielectrics and glass obey the laws of reflection and refraction and do not make light", "statement": "For every material with a positive index of refraction and every direction not along the surface, a mirror sends a ray to the mirrored direction with its colour; a dielectric reflects with a probability in [0, 1] and otherwise bends the ray by the law of refraction, and refuses to refract exactly beyond the critical angle; the light carried is scaled by the physical factor; the medium a ray travels in changes exactly when it is refracted; a pane of glass reflects and transmits together at most what arrives, and its samples carry that on average.", "quantifier": "all directions, indexes of refraction, colours and random numbers", "why_tests_cant": "the tests use a few angles; total reflection, the two sides of an interface and the balance of energy concern all of them", "anchors": ["rendering/src/material/specular.rs: cos_and_n, fresnel_reflectance, fresnel_transmission_dir, mirror_direction", "rendering/src/material/mirror.rs: sample_bsdf", "rendering/src/material/dielectric.rs: sample_bsdf", "rendering/src/material/glass.rs: sample_bsdf", "rendering/src/material/mod.rs: sample_bsdf"]}
{"id": "C75", "title": "Diffuse, plastic and metal surfaces send away at most the light that arrives, the same in both directions, and sample it consistently", "statement": "For every colour, specularity and roughness: the value of the material is unchanged when the directions of light and eye are exchanged; integrated over all directions it is at most one; sampling ends, yields directions above the surface spread around the mirror direction, and each sample carries the value of the material for its direction over the density told for it.", "quantifier": "all directions, colours, parameters and random numbers", "why_tests_cant": "integrals over all directions and termination for all random numbers cannot be sampled", "anchors": ["rendering/src/material/diffuse.rs", "rendering/src/material/plastic.rs", "rendering/src/material/metal.rs", "rendering/src/material/ward.rs", "rendering/src/material/bsdf_sample.rs: new_diffuse"]}
{"id": "C76", "title": "The ray tracer follows paths, ends, and neither makes nor loses light", "statement": "For every scene, depth limit and sequence of random numbers: every light source is equally likely to be asked and told so; ending a path at random leaves its expected contribution unchanged; surfaces that do not make light, under a uniform sky, are never seen brighter than the sky; colours are never negative; bounces beyond the limit have no effect; shadow rays end and, together with the rays that meet a light by chance, count every light exactly once.", "quantifier": "all scenes, rays, materials, light sources, depth limits and random numbers", "why_tests_cant": "tests compare a few renderings with tolerances; termination, the absence of made-up energy and the unbiasedness of weights concern all scenes and all random numbers", "anchors": ["rendering/src/ray_tracer.rs: trace_ray, get_local_illumination, trace_all_rays", "rendering/src/ray_tracer.rs: power_heuristic, balance_heuristic, intersect_light", "rendering/src/scene.rs: sample_light_uniform"]}
{"id": "C77", "title": "The daylight matrix collects, for every sensor, exactly what the sampled rays carry from each patch of the sky", "statement": "For every sky subdivision, every list of sensors and all random numbers: the matrix has a row per sensor and a column per patch; each entry is the sum of what the rays of that sensor that left towards that patch carry; a sensor that sees the whole sky has a row that sums to pi; with surfaces that do not make light no entry is negative and no row sums to more than pi; the mean row used for a surface is the mean of the rows of its sensors.", "quantifier": "all skies, sensors, scenes, depth limits, numbers of rays and random numbers", "why_tests_cant": "the sums range over all rays and patches, and a ray may end anywhere in the sky", "anchors": ["rendering/src/daylight_coefficients.rs: trace_ray, calc_dc", "rendering/src/colour_matrix.rs: colour_matrix_to_radiance, average_matrix", "light/src/solar_surface.rs: solar_irradiance"]}
{"id": "C78", "title": "A camera looks where the view says, every pixel of an image shows what is seen along its own ray, and pixels and rays correspond", "statement": "For every view and image size: the camera is made unless its directions are degenerate, looks in the direction of the view with an upright picture as wide as the field of view asks for; the ray of a pixel starts at the point of view and goes through the middle of the pixel; different pixels have different rays; the pixel found for the ray of a pixel is that pixel; and a rendered image has, in each pixel, what was traced along the ray of that pixel.", "quantifier": "all views, fields of view, image sizes and pixels", "why_tests_cant": "the tests use one square film and a few pixels; sizes, proportions and the rounding of the division that finds a pixel range over all images", "anchors": ["rendering/src/camera/pinhole.rs: new, gen_ray, pixel_from_ray", "rendering/src/camera/view.rs: view_right", "rendering/src/ray_tracer.rs: render, render_into"]}
{"id": "C79", "title": "A matrix saved to a file is read back as it was, and other files are refused", "statement": "For every matrix of numbers or of colours, saving succeeds and reading the file gives a matrix of the same size whose entries are what was printed; reading a file of the other kind fails; whatever the file, the rows of the matrix read are the lines after the header, complete and in order; a file that was cut is refused; no coefficient is lost.", "quantifier": "all sizes and entries of matrices, and all texts of files", "why_tests_cant": "files of any size, any contents and cut at any place cannot be enumerated", "anchors": ["rendering/src/colour_matrix.rs: save_colour_matrix, save_matrix, read_colour_matrix, read_matrix", "rendering/src/colour.rs: Display"]}
{"id": "C80", "title": "The triangles that stand for a sphere lie on it, face outwards and leave no hole", "statement": "For every sphere whose radius is not tiny: the mesh has 20480 triangles, all vertices lie on the sphere, all triangles face outwards, each side is shared by two triangles that run along it in opposite directions, every half-line from the centre meets a triangle, and the normals at the vertices are unit vectors away from the centre.", "quantifier": "all spheres (centre and radius) and all directions", "why_tests_cant": "the tests print a file to be looked at; holes in a mesh of twenty thousand triangles and the directions that miss it range over a continuum", "anchors": ["rendering/src/triangle/mod.rs: mesh_triangle, mesh_sphere"]}
{"id": "C81", "title": "A scene holds what was added to it, and lists exactly its lights", "statement": "After every history of materials and objects that did not panic: the scene has the materials in order; its triangles are those of the objects, in order, each with the normals and the two materials of its object, which exist; its lights are the objects with a material that emits, the distant ones apart. Adding panics only for materials that do not exist, degenerate shapes, and cylinders and sources that do not emit. Adding an OBJ file adds the triangles of its faces.", "quantifier": "all histories of additions, all scenes, all OBJ files (vertices and faces)", "why_tests_cant": "the vectors of the scene must stay in step after every history, and files can have any faces", "anchors": ["rendering/src/scene.rs: push_material, push_object", "rendering/src/from_obj.rs: process, add_from_obj_source", "rendering/src/primitive.rs: Primitive"]}
{"id": "C82", "title": "Reading a Radiance file ends, and gives the scene that the file describes", "statement": "For every file: reading ends; it gives a scene exactly if its words are the texts of entries one after the other (materials and objects, each with its modifier, kind, name, counts and numbers), and the scene has the materials in order and the objects, each with the material that its modifier names; how the file is spaced does not matter.", "quantifier": "all files (bytes), all entries and all ways to space them", "why_tests_cant": "the tests read one entry of each kind; files are unbounded and may be malformed at any place", "anchors": ["rendering/src/from_radiance.rs: RadianceReader, from_radiance_source"]}
{"id": "C83", "title": "The scene of a building has its surfaces, with their materials, and tells which triangle is which", "statement": "For every building: the scene for solar radiation is built exactly if every surface of 0.1 cm² or more and every fenestration that is not an opening has a construction in the building with solid outermost layers and a polygon that can be triangulated; its triangles are those of these surfaces and fenestrations in order, the list that comes with it names the surface or fenestration of each triangle, the front has the material of the first layer and the back that of the last layer, each substance is added once, and a material reflects and lets through what its substance does.", "quantifier": "all buildings: any surfaces, fenestrations, constructions, materials and substances", "why_tests_cant": "the tests build one or two rooms; numbers of triangles, materials and the transmittances are unbounded or continuous", "anchors": ["rendering/src/from_simple_model.rs: SimpleModelReader::build_scene, push_substance, substance_to_material, transmittance_to_transmissivity", "rendering/src/scene.rs: Scene::from_simple_model"]}
{"id": "C84", "title": "The coordinates at a hit are faithful", "statement": "Where a ray hits a triangle of the scene, the normal has length one, is at right angles with the triangle and faces the ray, the other two axes complete it to three axes of length one at right angles, the side reported is the front exactly when the ray sees the corners counterclockwise, and changing a direction to those coordinates and back gives the same direction, with lengths and angles kept.", "quantifier": "all triangles that are not degenerate, all ray directions and all pairs of directions", "why_tests_cant": "Tests compare a few axis-aligned triangles; the claim is about every triangle, every ray and every direction scattered, and the two sides use different formulas.", "anchors": ["rendering/src/triangle/mod.rs: new_info", "geometry/src/intersection.rs: SurfaceSide::get_side", "rendering/src/material/mod.rs: to_local, to_world"]}
{"id": "C85", "title": "Layers without mass go to where heat balances", "statement": "The nodes of a wall that have no thermal mass (panes of glass, thin insulation, cavities) take, at each time step, the temperatures at which the heat that reaches each of them — by conduction from its neighbours, by convection from the air, by radiation and from the sun — balances; there is exactly one such set of temperatures, temperatures that already balance are left as they are, and the other nodes of the wall do not change.", "quantifier": "for every wall with conductances of normal size, every chunk of nodes without mass in it, every temperature of its nodes, of the air and of the surroundings, and every solar radiation; the approach to the balance for conductances that do not depend on temperature and radiation not much stronger than convection", "why_tests_cant": "the iteration stops on its own criteria (a small change, a growing change or too many turns), so a test of one wall says nothing about which walls it leaves unbalanced", "anchors": ["heat/src/surface.rs: march_nomass", "heat/src/discretization.rs: get_k_q"]}
{"id": "C86", "title": "Each side of a surface meets what is there", "statement": "For the heat of a surface, each of its sides meets the air of the space, the given temperature or the outdoor air that its boundary names; the surroundings radiate like the sky outdoors (the temperature of a black body that emits the measured infrared irradiance) and like the air elsewhere; and the convection coefficient is the one that was given for that side or the TARP one for the temperature of that side, the direction it faces and whether the wind blows against it. An adiabatic side meets what the other side meets.", "quantifier": "for every surface, pair of boundaries, tilt, temperatures of its sides and of the air, wind and infrared irradiance", "why_tests_cant": "each side, boundary and tilt has its own branch, with similar variables that are easily confused; tests check a few combinations, mostly vertical walls", "anchors": ["heat/src/surface.rs: calc_border_conditions", "heat/src/heat_model.rs: iterate_surfaces"]}
{"id": "C87", "title": "A building at rest stays at rest", "statement": "In the dark, a building whose walls, windows and rooms all have the temperature of the air outside, of the sky and of everything that the surfaces lead to keeps that temperature, for any number of time steps and any wind, and its surfaces give no heat to the air. Elsewhere, the heat that a surface gives to the air on each side is what it takes by convection and radiation there, negative readings of solar radiation count as none, and the heat that surfaces give to the air of a room is the heat that the room receives.", "quantifier": "for every building whose surfaces are properly discretised, every temperature above absolute zero, every sequence of winds and every number of steps; flows for every surface", "why_tests_cant": "rest has to hold for every construction, mixture of nodes with and without mass and number of steps; one lost or doubled term shows only in some of them", "anchors": ["heat/src/surface.rs: march, new", "heat/src/heat_model.rs: march, calculate_zones_abc"]}
{"id": "C88", "title": "The sun that layers absorb reaches their own nodes", "statement": "Of the sun that falls on a side of a surface, each layer absorbs what the optics of the panes say, seen from that side, and hands it to its own nodes: in equal parts if it is transparent, at the side where the sun comes from if it is opaque. What the nodes absorb, what goes through and what is reflected add up to what falls on the surface.", "quantifier": "for every construction of panes with cavities between them or with an opaque layer, every division of its layers into segments, and both sides", "why_tests_cant": "layers, panes and nodes are counted with three different indices, from the front and from the back; tests look at a couple of constructions with panes that are equal on both sides", "anchors": ["heat/src/surface.rs: ThermalSurfaceData::new", "heat/src/glazing.rs: get_front_glazing_system, get_back_glazing_system, alphas"]}
{"id": "C89", "title": "A simulation steps through the weather", "statement": "Simulating writes one row for each time step of the period of the weather file, at equally spaced dates, each with the state that control and then the solar, air and heat models leave, in this order; a failure ends the simulation, with the rows until then. The heat model divides a step in equal parts that add up to it, no longer than any surface asks for, and reads the weather at the end of each.", "quantifier": "for every sequence of weather records, number of steps per hour, controller and physics, and every step at which one of them fails", "why_tests_cant": "the dates come from an iterator with floating hours that may pass the new year, and the last date is moved by a tenth of an hour; tests run a few files and do not count rows", "anchors": ["src/run_simulation.rs: pre_process, run, run_rhai", "src/multiphysics_model.rs: march", "heat/src/heat_model.rs: new, march"]}
{"id": "C90", "title": "Every quantity of a building has its own place in the state", "statement": "Building the physics models of a building gives each quantity of each surface, fenestration and space exactly one place in the simulation state, of its own kind and for its own object, in a fixed order; nodes of a wall are contiguous; openings only get irradiance, and nothing else. Reading and setting a quantity through its object reads and sets that element and no other, an absent quantity cannot be set, and models cannot be built twice on the same objects.", "quantifier": "for every number of spaces, surfaces, fenestrations and nodes, every header that still takes values, every state and every value", "why_tests_cant": "the places are numbers handed out by three modules in sequence and kept in dozens of optional fields; tests look at small buildings, where a swapped or shared place may show nothing", "anchors": ["model/src/surface.rs: add_front_convection_state, add_node_temperature_states", "model/src/fenestration.rs: add_front_convection_state, add_node_temperature_states", "heat/src/heat_model.rs: new", "heat/src/surface.rs: new", "air/src/air_model.rs: new", "light/src/solar_surface.rs: make_surfaces, make_fenestrations", "derive/src/object_struct.rs: getters and setters"]}
{"id": "C91", "title": "Outputs are requested by name", "statement": "A requested output, given by the quantity and the name of the object (or of the two spaces, or of the object and the number of the node), reports the element of the simulation state that is that quantity of that object, and no other; requesting several reports them in the order of the request.", "quantifier": "for every names of spaces, surfaces, fenestrations, systems and luminaires, every list of elements of the state, and every list of requests", "why_tests_cant": "requests and elements are compared as texts, after one of them went through a JSON writer; tests use two or three names of letters and blanks", "anchors": ["derive/src/simulation_state_behaviour.rs: derive_output", "model/src/simulation_state_element.rs: SimulationStateElement", "src/run_simulation.rs: pre_process"]}
{"id": "C92", "title": "Control scripts reach objects by name or number and change only their properties", "statement": "In a control script, looking up an object by name gives the first one with that name and by number the one in that place, and is an error of the script otherwise; each property of an object is one quantity of its own in the state; setting it gives it that value and changes nothing else; whatever a script does, the rest of the state is as before. Only research mode allows what nobody could do in a real building.", "quantifier": "for every building, every state, and every script, with any branches, error handlers and sequence of calls", "why_tests_cant": "scripts are programs of users with arbitrary control flow; the properties come from macros over fields and their attributes; tests run one or two scripts", "anchors": ["derive/src/object_struct.rs: get_api, gen_object_api", "derive/src/object_enum.rs: gen_group_api", "derive/src/field.rs: api_name, api_getter, api_setter", "model/src/rhai_api.rs: register_control_api", "src/rhai_script_controller.rs: control"]}
{"id": "C93", "title": "A building that is saved is loaded as it was", "statement": "A building made through the API and written as JSON is read as a building with the same name, options and objects in the same order, whose polygons are those that writing and reading a polygon gives, and with the same quantities in its state; written as SIMPLE text, it is read as the same except for its name and solar options. A polygon with holes is read as a single loop around it and its holes, with the same area; a loop that was read before is read again as it was. Whatever file is loaded, also one written by hand, the building has exactly the objects of the file, in order, with their names, constructions, parents, sides and polygons.", "quantifier": "for every history of calls that made the building, every number and order of its objects, and every polygon and loop", "why_tests_cant": "loading replays the calls that make a building, in another order, and calls depend on what is there already; tests load a few small files", "anchors": ["model/src/model.rs: Display, SimpleModelVisitor::visit_map, from_json, from_file", "model/src/scanner.rs: parse_model", "model/src/fenestration.rs: parent_surface", "geometry/src/loop3d.rs: serialize, deserialize", "geometry/src/polygon3d.rs: serialize, deserialize, from"]}
{"id": "C94", "title": "Comparing, snapping and projecting loops", "statement": "Two closed loops that are said to be equal have the same number of vertices, areas within a thousandth, and the same vertices in the same cyclic order, within the tolerance, going around the other way when their normals are opposite; a loop equals itself, and its vertices taken from another start or backwards when they are further apart than twice the tolerance. Snapping leaves every vertex where it is or moves it to one of the given points, never moves one that is not close to any, and moves one that is close to a point to that point and counts it once when the given points are apart. Projecting moves every vertex along the normal of the other loop into the plane of that loop, moves nothing the second time, and keeps the direction of the normal; it fails without changes exactly when a loop is open or empty. The area and normal that a loop or polygon answers afterwards are those of its vertices.", "quantifier": "for every pair of loops, every list of points, every tolerance and every polygon with any number of holes", "why_tests_cant": "which vertex is found first, how many are within the tolerance and what remains from before depend on the loop; tests use triangles and squares", "anchors": ["geometry/src/loop3d.rs: is_equal, reverse, snap, project_into_plane, normal_distance, contains_vertex, containing_segment", "geometry/src/polygon3d.rs: project_into_plane, snap"]}
{"id": "C95", "title": "Splitting loops with segments", "statement": "Splitting a closed loop with a segment either gives the loop itself back, or closed loops that are the two sides of one chord: a cut between a point on one edge and a point on a later edge, both on the segment (taken into the plane of the loop). The vertices of each piece are vertices of the loop, on that side of the chord, and the two ends of the chord; when nothing but points between their neighbours is left out, the areas of the two pieces add up to the area of the loop. An open loop is refused and nothing panics. Splitting with many segments gives at most two pieces for each piece and segment, all of them closed. A segment that goes from one side of the loop to another splits it.", "quantifier": "for every loop, every segment and every list of segments", "why_tests_cant": "which edges are crossed, in which order and how often depends on the shape of the loop; tests split squares and a few polygons", "anchors": ["geometry/src/loop3d.rs: intersect, split, split_from_slice, contains_segment, push, close"]}
{"id": "C96", "title": "What two loops have in common, and cutting one from the other", "statement": "The common part of two closed loops in one plane is nothing, or a closed loop with the area and perimeter that it reports, whose vertices are vertices of one loop that the other contains or points where the boundaries meet (within a millimetre). Cutting one loop from another gives the loop itself when they have nothing in common, and otherwise a closed loop whose vertices are on the boundary of the loop or of the common part. Open loops are refused and nothing panics. Points that are in both loops are in the common part, and the area of what is left after cutting is the area of the loop minus that of the common part.", "quantifier": "for every pair of loops", "why_tests_cant": "where the walk around both loops starts, which edges it meets and how it ends depends on both shapes and on which vertex comes first; tests use a few rectangles", "anchors": ["geometry/src/loop3d.rs: intersection, bite, get_closest_intersection_pt, intersect, test_point, sanitize"]}
{"id": "C97", "title": "The errors reported with transformed points, vectors and rays", "statement": "When a point, vector or ray is transformed (or inverse-transformed) with its error, the exact transform is within the reported error of the computed one; when an error comes in, the exact transforms of all points within it are within the reported error of the computed one; what comes in exact gets an error that comes from rounding only. The origin of a transformed ray is moved forward along its direction until every possible origin within the error is behind it, and no farther.", "quantifier": "for every transform, point, vector, ray and error", "why_tests_cant": "rounding errors depend on every bit of the matrix and of the point; the worst case needs four roundings in the same direction, which random tests do not find", "anchors": ["geometry/src/transform.rs: transform_pt_with_error, transform_pt_propagate_error, transform_vec_with_error, transform_vec_propagate_error, transform_ray, transform_ray_propagate_error and their inverses, mul4x4_abs", "geometry/src/lib.rs: gamma"]}
{"id": "C98", "title": "Radiation estimated from the cloud cover", "statement": "The radiation estimated for the sun and the sky is physically possible: what reaches the atmosphere is within 4% of the solar constant; a clear sky lets a part of it through; the estimated global, direct and diffuse radiation are numbers and never negative; the direct one is not more than what reaches the atmosphere and, on a horizontal plane, not more than the global one, with the diffuse one making up the difference; there is none while the sun is under the horizon. Filling in the radiation of weather data keeps every line and everything else on it.", "quantifier": "for every place, time of the year, height of the sun, cover of clouds, temperatures, humidity, wind and pressure, and all lists of weather data", "why_tests_cant": "the estimates are products of fitted polynomials and tables of about 1200 coefficients, each right for the weather it was fitted to; the combinations that give nonsense are between the samples of any test", "anchors": ["weather/src/solar/mod.rs: air_mass, normal_extraterrestrial_radiation, beam_atmosphere_transmittance, clear_sky_global_horizontal_rad, estimate_global_horizontal_radiation, hourly_clearness_index, disc_direct_solar, perez_direct_normal_radiation, direct_diffuse_from_cloud_generic", "weather/src/lib.rs: Weather::fill_solar_radiation_data"]}
{"id": "C99", "title": "Infrared radiation of the sky", "statement": "When the weather has no infrared radiation of the sky, the one derived from the temperatures and the cover of clouds is that of the documented formula, for the cover as it is documented (a fraction) and read from weather files; it is positive, grows with the cover, and is less than that of a black body at the temperature of the air.", "quantifier": "for every temperature, dew point and cover of clouds, and every line of a weather file", "why_tests_cant": "the existing tests give the cover in tenths to the function, so they agree with it; only following the units from the file to the formula shows the mismatch, for every cover but zero", "anchors": ["weather/src/current_weather.rs: CurrentWeather::derive_horizontal_ir, CurrentWeather::opaque_sky_cover", "weather/src/epw/weather_line.rs: From<&EPWWeatherLine> for CurrentWeather", "light/src/solar_model.rs: SolarModel::update_ir_radiation"]}
{"id": "C100", "title": "Radiance of the sky", "statement": "The sky built from the diffuse and direct radiation has the clearness, brightness and water that the model needs (at least one, at least a hundredth, positive; growing with the direct and diffuse radiation and the dew point); the luminous efficacy of its diffuse part is positive; its radiance is not negative in any direction, and over the bins of the sky it adds up to the diffuse radiation given.", "quantifier": "for every position of the sun, day, dew point, diffuse and direct radiation, and every direction", "why_tests_cant": "the radiance is a product of exponentials with 160 fitted coefficients; where it is negative depends on direction, sun and both radiations together, and a negative patch is hidden in sums over the sky", "anchors": ["weather/src/solar/perez.rs: sky_clearness, sky_brightness, precipitable_water_content, diffuse_illuminance_ratio, calc_params, get_sky_func_standard_time"]}
{"id": "C101", "title": "Images in false colours", "statement": "Saving an image in false colours never panics and gives the encoder the size of the image and three bytes per pixel, in order: the colour of the table at the place of the luminance of the pixel (or of its logarithm) between the limits of the scale, rounded to one of 256 levels.  A limit that is not asked for is the least luminance shown, or the luminance of the brightest pixel; pixels beyond the limits have the first or the last colour.", "quantifier": "for every image, limits and table of colours", "why_tests_cant": "the limits come from a search over all the pixels, and each pixel may be black, negative, dim or beyond a limit; tests look at a few pictures", "anchors": ["rendering/src/image.rs: save_falsecolour, save_log_falsecolour", "rendering/src/colourmap/mod.rs: map_linear_colour", "rendering/src/colour.rs: luminance"]}
{"id": "C102", "title": "The sky and the sun of a scene", "statement": "Adding a sky to a scene for a place, a time and the radiation gives it the sky of the model of Perez and, by day, one light: a distant source at the place of the sun, as wide as it is, whose light on a surface that faces it is the direct radiation times its luminous efficacy.  At night no sun is added.  Nothing else in the scene changes.", "quantifier": "for every scene, place, time and radiation", "why_tests_cant": "the efficacy depends on the height of the sun, the radiation and the day together; the sun is within three degrees of the vertical only at some places and times; tests use one place at noon", "anchors": ["rendering/src/scene.rs: add_perez_sky", "weather/src/solar/perez.rs: get_sky_func_standard_time, direct_illuminance_ratio"]}
{"id": "C103", "title": "The solar radiation of a whole building", "statement": "In a step of the solar model, every side of every surface and window gets the average of the solar irradiance that was there and of what its own daylight coefficients give for the sky (nothing at night), and the infrared irradiance of what it faces; nothing else in the state of the building changes and the step does not fail.  The optical data of a building that a run saves are those that the next run uses, with the subdivision of the sky they were made for.", "quantifier": "for every building whose models were built, every state, sky and time, and any optical data of the building", "why_tests_cant": "each value has its own place in a vector of any length, and four matrices are multiplied and shared out in different loops; tests look at one or two surfaces, and at data saved by the same program for the same building", "anchors": ["light/src/solar_model.rs: SolarModel::new, march, update_ir_radiation, update_solar_radiation", "light/src/optical_info.rs: OpticalInfo", "matrix/src/generic_matrix.rs: mul"]}
{"id": "C104", "title": "The heat of a whole building", "statement": "A step of the heat model on the state of a whole building does to each surface, window and room what the physics of that object alone gives from the values that the state has for it and its surroundings: temperatures of all nodes, convection coefficients, heat flows and room temperatures end up at the places of their own objects, however many objects there are and in whatever order they are stored; nothing else in the state changes; it fails only if the physics of an object fails.  A building at rest stays as it is.  The temperatures that a step starts from are those in the state.", "quantifier": "for every building whose models were built, every state, weather, number of steps and size of the building", "why_tests_cant": "surfaces are marched together and write to one shared vector, in two loops with a memory of their own; that no object disturbs another must hold for every building and layout of the state", "anchors": ["heat/src/heat_model.rs: ThermalModel::march, iterate_surfaces, allocate_memory, calculate_zones_abc", "model/src/surface_trait.rs: set_node_temperatures, get_node_temperatures", "heat/src/surface.rs: ThermalSurfaceData::march, set_front_convection_coefficient"]}
{"id": "C105", "title": "A step of the whole physics, and whole simulations, are coherent", "statement": "For any building whose models of sun, air and heat were built together: in a step of the multiphysics model the radiation on every side and the infiltration of every space are brought up to date first, each from the temperatures before the step and the weather of the step; the heat model then works with exactly those values and does for each object what the object's own calculation says; the step succeeds exactly if those calculations do; values of the state that are not physical quantities are untouched by the physics, so that in a whole simulation they are what the controller makes of them; and in a dark, unheated world all at one temperature, whatever the wind and the infiltration, for walls that do not touch the ground and whose outdoor sides see nothing but sky, ground and air, a simulation of any length succeeds and every node and room stays at that temperature.", "quantifier": "every building whose models were built, every state that the heat model has in memory, every weather, every controller that spares the nodes, simulations of any number of steps", "why_tests_cant": "Tests run each model alone on small buildings for some steps; that the three models do not disturb one another's values in a shared state, for every building and any number of steps, cannot be sampled.", "anchors": ["src/multiphysics_model.rs: MultiphysicsModel::march", "src/run_simulation.rs: run", "light/src/solar_model.rs: SolarModel::march", "air/src/air_model.rs: AirFlowModel::march", "heat/src/heat_model.rs: ThermalModel::march"]}
{"id": "C106", "title": "A date is written as the minute it is at", "statement": "The text of a date (the first column of the results) can be read in one way only, as a month, a day, an hour and a minute; for every date of the year they are those of the date, to the nearest minute, with an hour from 0 to 23 and a minute from 0 to 59. Later dates never read an earlier minute, and dates that are a minute or more apart have different texts, so the rows of a simulation can be told apart.", "quantifier": "every valid date, every two valid dates, every two dates of every period with time steps of a minute or more; the run in floats, bit by bit", "why_tests_cant": "Rounding to minutes and carrying into the hour must agree for all the instants of a year; tests print a few dates and compare nothing. The midnight case shows up only after the time steps of a day have been added with rounding.", "anchors": ["calendar/src/date.rs: impl Display for Date", "calendar/src/period.rs: Period::next", "src/run_simulation.rs: run"]}
{"id": "C107", "title": "A date-time converted to a date and back is the same", "statement": "A date made from a date-time of the chrono library has its month, its day and its time of the day to the second; and turned back into a date-time (of a year that has that day) it gives the date-time it came from.", "quantifier": "every date-time with hour below 24, minute and second below 60", "why_tests_cant": "There are 86400 times of a day; the only test of the way back is of one instant just before midnight, which is one of the few that work.", "anchors": ["calendar/src/date.rs: From<NaiveDateTime> for Date", "calendar/src/date.rs: Date::into_naive_datetime"]}
{"id": "C108", "title": "The results reach their destination whole, or the run fails", "statement": "For any destination that the caller gives to a run: if the run does not fail, the destination has received exactly the report (the header and one line for each time step, in order). If the simulation stops in an error after some time steps, it has the header and the complete lines of those; and wherever the destination itself fails, it has received a beginning of the report and the run does not end well.", "quantifier": "every destination allowed by the Write trait (any number of characters taken by any call, failure at any call), every simulation, every names and values", "why_tests_cant": "Tests write to vectors and files, that always take everything; short writes and failures at every possible call are schedules of the environment.", "anchors": ["src/run_simulation.rs: run", "src/run_simulation.rs: run_rhai"]}
{"id": "C109", "title": "The command does what its options say, and only that", "statement": "An input that is not a model in a known format gives a non-zero exit code and touches nothing. Translating writes the model in the format of the name of the new file and changes no other file; checking changes nothing; neither simulates. Otherwise the simulation runs with the controller asked for (none, the occupants if it is called people, or the script of that file), its results go to the output file alone, or to the standard output with no file touched, and the exit code is zero exactly if it finishes. A simulation that cannot be started leaves earlier results as they were.", "quantifier": "every set of options, every set of files, every behaviour of the readers, printers, controllers and simulation", "why_tests_cant": "There are no tests of the command; the combinations of options, files and failures are unbounded.", "anchors": ["bin/simple.rs: main", "bin/simple.rs: choose_controller", "bin/simple.rs: run_sim", "src/run_simulation.rs: pre_process", "model/src/model.rs: print_to_file, print_to_json_file, from_file, from_json_file"]}
{"id": "C110", "title": "A building gets the optical data of its own surfaces, and they always work for it", "statement": "For every building and whatever the options, optical data are calculated in which each side of each surface and fenestration has, at its own number, the daylight coefficients of that side (the mean over its points of what rays bring from each patch of the sky; none where the boundary sees no sun) and view factors that add up to the part of its points that is free. No coefficient is negative, and those of a side add up to at most pi, to exactly pi with nothing in the way. A building with a surface and at most eight subdivisions of the sky is accepted with the data calculated for it, with the subdivision asked for, and the data are what is saved.", "quantifier": "every number of surfaces and fenestrations, boundaries, points, normals, random numbers, scenes and subdivisions of the sky", "why_tests_cant": "Tests use one or two surfaces and few rays; which row belongs to which surface and side must be right for every number of them, and for every random number.", "anchors": ["light/src/optical_info.rs: OpticalInfo::new", "light/src/solar_surface.rs: SolarSurface::calc_solar_dc_matrix", "light/src/solar_surface.rs: SolarSurface::front_rays, back_rays, calc_view_factors"]}
{"id": "C111", "title": "The commands for pictures and matrices write what they were asked for, and nothing else", "statement": "Three numbers given as a point or direction are read as those numbers whatever the blanks between them. A picture that is written has the size asked for, and each of its pixels holds what is traced along the ray from the point of view through the middle of that pixel, upright and as wide as the field of view. Comparing two images of the same size writes an image of that size with the difference of radiance at each pixel (black for an image and itself), in grey or in the colours of the scale asked for; images that cannot be read or that differ in size are refused with an exit code of one and no file changes. False colours are those of the image in the scale asked for. Scenes of an unknown format are refused. No command changes any file but its output, and none panics. The matrix of daylight coefficients has one row for each of the sensors given.", "quantifier": "every text, image, pixel, camera, scale, scene, file and number of sensors", "why_tests_cant": "The commands have no tests; a test could show one picture from one camera, but which ray goes into which pixel, and that other files are left alone, must hold for each size, camera and file.", "anchors": ["bin/spict.rs: Triplet::from_str, main", "bin/scompare.rs: main", "bin/sfalsecolor.rs: main", "bin/sfluxmtx.rs: main"]}
{"id": "C112", "title": "Whatever the order in which a scene is put together and its acceleration structure built, rays see all of it", "statement": "After any history of adding objects and building or rebuilding the acceleration structure, the scene has exactly the triangles that were added, each with its own normals and materials. A ray that is cast meets the closest of all triangles in the scene, with the materials of that triangle, or nothing when it hits none. Building a structure that is there already, without asking to rebuild it, and casting rays before it is built panic.", "quantifier": "every history of additions, builds and rebuilds, every object, every ray and every sorting that the standard library may do", "why_tests_cant": "Tests build one scene and then its structure; building reorders four lists at a time, and what rays see depends on the whole history.", "anchors": ["rendering/src/scene.rs: Scene::push_object, build_accelerator, rebuild_accelerator, cast_ray, unobstructed_distance", "rendering/src/bvh.rs: BoundingVolumeTree::new"]}
{"id": "C113", "title": "What is told about the point where a ray meets a surface is true of the surface there", "statement": "Where a ray meets a sphere, a cylinder, a disk or a triangle, the pair of coordinates that is told is that of the point, the two tangents are the velocities of the point along the coordinates, the normal is that of the surface on the side of the ray, and the two derivatives of the normal are its velocities along the coordinates.", "quantifier": "every sphere, cylinder, disk and triangle, whole or partial, every ray that is not tangent, and every point where it meets them other than the poles of a sphere and the centre of a disk", "why_tests_cant": "Tests compare a few numbers at a few points with the same formulas; whether they are the derivatives of the surface is a statement about all its points and their neighbourhoods.", "anchors": ["geometry/src/intersection.rs: IntersectionInfo::new", "geometry/src/sphere3d.rs: Sphere3D::intersection_info", "geometry/src/cylinder3d.rs: Cylinder3D::intersection_info", "geometry/src/disk3d.rs: Disk3D::intersection_info", "geometry/src/triangle3d.rs: Triangle3D::intersect_local_ray"]}
{"id": "C114", "title": "Weather put together from parts has all of them, whatever the order, at every moment", "statement": "After any history of adding weather of the same place and sorting, the records are all that were added and nothing else; adding weather of another place panics. The weather at a moment is that of the record of the moment, or that between the closest records before and after it, whatever part they came in, and does not depend on the order of the parts. Directions of the wind between two records are passed when turning the shorter way from one to the other. In weather made of schedules each magnitude is what its own schedule says.", "quantifier": "every history of additions and sortings, all records, every moment, all directions of the wind and all schedules", "why_tests_cant": "Tests add nothing and sort one short list; the result depends on the history and on which records happen to be neighbours.", "anchors": ["weather/src/lib.rs: Weather::add_assign, sort_data, find_weather_line, get_weather_data", "weather/src/current_weather.rs: CurrentWeather::interpolate", "weather/src/synthetic_weather.rs: SyntheticWeather::get_weather_data, default"]}
{"id": "C115", "title": "The build with the fast inverse square root normalises vectors as the other does", "statement": "With the feature quick_inv_sqrt, normalising a vector that is not too short gives the vector of length one in its direction, and the perpendicular of a vector is a vector of length one perpendicular to it, within some millionths in each component, as without the feature.", "quantifier": "all vectors that normalising accepts, in the build with the feature", "why_tests_cant": "The test goes through the integers from 1 to 499 and divides the error by the number; the first guess comes from the bits of the number, so its error depends on the exponent and on all the bits of each of some two thousand million numbers.", "anchors": ["geometry/src/quick_inverse_sqrt.rs: quick_inv_sqrt", "geometry/src/vector3d.rs: Vector3D::normalize, get_perpendicular, length_squared"]}
{"id": "C116", "title": "A wall never gets beyond the temperatures around it, and what is warmer stays warmer", "statement": "Without sun, the nodes of a wall stay between the lowest and highest of the temperatures that they, the air at both sides and the surfaces to which they radiate have had, through any number of intervals; sun can only make them warmer. More generally, if the same wall starts at least as warm everywhere, in surroundings at least as warm and with at least as much sun, it ends at least as warm. The subdivision of the time step chosen when a construction is discretised is small enough for this, for surroundings that exchange up to 20 W/m2K.", "quantifier": "every wall (number of nodes, masses, conductances), every pair of initial temperatures, every surroundings and every history of them; every construction and time step, in exact arithmetic", "why_tests_cant": "Tests march a few walls for a while; overshoot depends on the masses, conductances, time step and history, and appears only for some constructions.", "anchors": ["heat/src/surface.rs: march_mass, rk4, rearrange_k", "heat/src/discretization.rs: discretize_construction, get_k_q, min_dx"]}
{"id": "C117", "title": "The reflectance reported for a material is the share of light it reflects", "statement": "The directional-hemispherical reflectance estimated for a material is the mean of what its samples carry: for diffuse materials and mirrors it is exactly their colour, from every direction and with any positive number of samples; the hemispherical-hemispherical reflectance is their colour on the average and never above twice the colour; light that goes through a material is not counted as reflected.", "quantifier": "for all materials, colours, directions, numbers of samples and random numbers", "why_tests_cant": "One test draws half a million samples of one white diffuse material and accepts an error of one percent; it says nothing about other colours, directions, few samples, mirrors or glass, nor about the expected value.", "anchors": ["rendering/src/material/mat_trait.rs::directional_rho", "rendering/src/material/mat_trait.rs::hemispherical_rho", "rendering/src/samplers.rs::sample_uniform_hemisphere", "rendering/src/material/glass.rs::sample_bsdf"]}
{"id": "C118", "title": "Curved surfaces are shaded with the normals of their own vertices", "statement": "When rendering with textures, the normal used where a ray hits a triangle has length one, faces the side the ray comes from, and is the blend of the normals of the three vertices weighted as the point is (the normal of a vertex at that vertex). Flat triangles are shaded with their own normal, shading a hit does not panic, and the axes at the hit stay at right angles, so that directions taken to the coordinates of the hit and back are the same.", "quantifier": "every triangle, every three vertex normals, every ray that hits it from either side, every point of the triangle", "why_tests_cant": "The normal depends on a point of the triangle, three directions and a ray; tests with flat triangles cannot tell one weighting of the vertices from another.", "anchors": ["rendering/src/interaction.rs: interpolate_normal, get_triad", "rendering/src/triangle/fallback.rs: baricentric_coordinates", "rendering/src/triangle/mod.rs: new_info, mesh_triangle", "rendering/src/ray_tracer.rs: trace_ray"]}
{"id": "C119", "title": "An unheated building in the dark never leaves the range of temperatures of what surrounds it", "statement": "In the dark, and without any heating, cooling or lights on, the temperatures of all the rooms and of every node of all surfaces and fenestrations stay between the lowest and the highest of the temperatures at which they start and of the outdoor air, the air that enters the rooms, the given temperatures and what the surfaces radiate to, in every time step of a simulation of any length; and the simulation does not fail.", "quantifier": "All buildings (any rooms, surfaces and fenestrations, with or without mass, with cavities), initial temperatures, sequences of outdoor temperatures and winds, and numbers of steps.", "why_tests_cant": "A test runs one building through some steps of one weather; the bound is an invariant of rooms and surfaces together over histories of any length, and instabilities may take many steps to show.", "anchors": ["heat/src/heat_model.rs: march, iterate_surfaces, calculate_zones_abc, estimate_zones_future_temperatures", "heat/src/surface.rs: march, march_mass, march_nomass, calc_border_conditions"]}
{"id": "C120", "title": "More heating warms a room and nothing else in the same step", "statement": "For every state of a building and every other setting of its heaters, coolers and lights: after the next turn of the heat model a room that gets more watts is warmer than it would have been, one that gets less is colder, and one that gets the same has the same temperature; the walls and windows have the same temperatures; and the extra temperature stores no more energy than was paid for.", "quantifier": "all states, all powers, all lengths of a turn, all weather", "why_tests_cant": "Tests compare one heater power with an analytical solution within a tolerance; they do not compare two settings in every state.", "anchors": ["heat/src/heat_model.rs: ThermalModel::march, ThermalModel::calculate_zones_abc, ThermalModel::estimate_zones_future_temperatures"]}
{"id": "C121", "title": "What is told about a hit is the same in the frame of the shape and in that of the world", "statement": "What is told about the point where a ray meets a shape can be taken from the frame of the shape to that of the world and back, and is then as it was. In both frames the normal is perpendicular to the tangents, on the side from which the ray comes, and of length one.", "quantifier": "all transforms whose inverse cancels them, all hits, all directions of the ray", "why_tests_cant": "Tests move a few points; that nothing is lost must hold for every transform and every hit.", "anchors": ["geometry/src/intersection.rs: IntersectionInfo::transform, IntersectionInfo::inv_transform", "geometry/src/transform.rs: Transform::transform_normal, Transform::inv_transform_normal"]}
{"id": "C122", "title": "Triangles compare as the same when they are made of the same vertices", "statement": "Comparing two triangles answers yes exactly when each vertex of one is within a millimetre of its own vertex of the other, in whatever order they are listed; every triangle is the same as itself, and which of the two is asked makes no difference.", "quantifier": "all pairs of triangles", "why_tests_cant": "Tests compare one triangle with its permutations and one other; the tolerance matters for pairs that tests do not list.", "anchors": ["geometry/src/triangle3d.rs: Triangle3D::compare, Triangle3D::has_vertex"]}
{"id": "C123", "title": "A refined mesh has triangles of the size and shape asked for", "statement": "When meshing a polygon ends well, every triangle has an area of at most max_area and an aspect ratio of at most max_aspect_ratio, except triangles of less than a thousandth of a square metre.", "quantifier": "all polygons and meshes, all limits, all numbers of rounds of refinement", "why_tests_cant": "Tests refine a few polygons; the limits must hold for whatever triangles the splits, flips and added points lead to.", "anchors": ["geometry/src/triangulation3d.rs: Triangulation3D::mesh_polygon, Triangulation3D::refine, Triangulation3D::add_point, Triangulation3D::add_point_to_triangle"]}
