{"id": "C01", "title": "Configuration values are classified by a fixed grammar", "statement": "For every text and every set of existing files, the value obtained for a configuration entry is determined by this grammar: the text is cut at the first '%' and stripped; a text containing a space is a list of the space-separated items; exactly 'T'/'F' is a boolean; an optional minus followed by one or more digits is that integer; an optional minus followed by digits and dots is a number, and an error exactly when it is not one number with at most one dot and at least one digit; a text starting with 'None' and the empty text are 'no value'; otherwise the name of an existing file is loaded, and anything else (in particular scientific notation such as 1e-6) is kept as text.", "quantifier": "every character string, every file-existence predicate, both settings of file parsing", "why_tests_cant": "it quantifies over every string; tests sample a few literals", "anchors": ["aeolis/inout.py:parse_value"]}
{"id": "C02", "title": "Printed configuration values read back unchanged", "statement": "Printing an integer, a boolean, 'no value' (with empty filler) or a list of two or more integers/booleans as the configuration writer does and parsing the text again yields the same value.", "quantifier": "every integer, boolean and every list (length >= 2) of them", "why_tests_cant": "the input space is infinite; a test fixes finitely many values and cannot exclude a failing one", "anchors": ["aeolis/utils.py:print_value", "aeolis/inout.py:parse_value"]}
{"id": "C03", "title": "Configuration file: last assignment wins, all else keeps its default", "statement": "After reading a configuration file, a parameter has the value of the last line of the file that assigns it; a parameter never assigned has its default; comment lines (first non-blank character '%') and lines without '=' have no influence; a missing file is an error and yields no configuration.", "quantifier": "every sequence of text lines, every default configuration, every parameter name", "why_tests_cant": "it quantifies over every string; tests sample a few literals", "anchors": ["aeolis/inout.py:read_configfile"]}
{"id": "C04", "title": "Inline comments and trailing '=' text do not influence a value", "statement": "In an assignment line, the text behind the first '%' after the equal sign and the text behind a second '=' never influence the value of the parameter.", "quantifier": "every assignment line and every trailing text", "why_tests_cant": "it quantifies over every string; tests sample a few literals", "anchors": ["aeolis/inout.py:read_configfile", "aeolis/inout.py:parse_value"]}
{"id": "C05", "title": "Derived defaults are filled only when no value is given", "statement": "After reading, the output file name, the height h and the number of save times equal the given value when a (truthy) value was given, and otherwise the configuration file name with extension '.nc', the value of z, and the quotient dzb_interval/dt truncated to an integer; no other parameter is changed by this step apart from wrapping grain_dist and grain_size into arrays.", "quantifier": "every configuration dictionary", "why_tests_cant": "the input space is infinite; a test fixes finitely many values and cannot exclude a failing one", "anchors": ["aeolis/inout.py:read_configfile"]}
{"id": "C06", "title": "Configuration check accepts exactly the usable input files", "statement": "The configuration check raises an error if and only if the x-grid or bed is not an array, or the y-grid is not an array while the model has more than one row, or a wind, tide or meteo table that is an array is not two-dimensional with at least 3, 2 and 6 columns respectively; with one of the parameters it looks at missing altogether it fails with a KeyError.", "quantifier": "every combination of parsed configuration entries (text, scalar, arrays of any shape)", "why_tests_cant": "the input space is infinite; a test fixes finitely many values and cannot exclude a failing one", "anchors": ["aeolis/inout.py:check_configuration"]}
{"id": "C07", "title": "Backups never overwrite a file", "statement": "Making a backup of a file creates exactly one new file holding the current content, under the lowest free number 1..999, and changes no existing file; with all 999 numbers taken it fails and changes nothing. Hence in any sequence of writes and backups of a file every earlier backup keeps the content it was made with.", "quantifier": "every file system content, every file name, every sequence of writes and backups", "why_tests_cant": "it quantifies over every history of calls; tests execute a few finite histories", "anchors": ["aeolis/inout.py:backup", "aeolis/inout.py:get_backupfilename"]}
{"id": "C08", "title": "Time series are reproduced exactly inside their time range", "statement": "For a time series with increasing times, the interpolated value at a listed time is the listed value, and between two consecutive listed times it is the straight line between the two listed values.", "quantifier": "every series length, all strictly increasing times, all values, all query times in range", "why_tests_cant": "it is an identity/inequality over all real inputs, array sizes and parameters; sampling cannot establish it", "anchors": ["aeolis/utils.py:interp_circular", "aeolis/utils.py:interp_array"]}
{"id": "C09", "title": "Time series repeat periodically", "statement": "The interpolated value at a time outside the range equals the one at the time shifted by a whole number of periods, the period being the length of the series plus one second; in the one-second gap the last value is held. (The documentation's f(x - max) is off by one second.)", "quantifier": "every series, every query time, every integer number of periods", "why_tests_cant": "it is an identity/inequality over all real inputs, array sizes and parameters; sampling cannot establish it", "anchors": ["aeolis/utils.py:interp_circular"]}
{"id": "C10", "title": "Interpolated conditions never leave the range of the data", "statement": "The interpolated value of a time series is never below the smallest nor above the largest listed value, at any time.", "quantifier": "every series with increasing times and every query time", "why_tests_cant": "it is an identity/inequality over all real inputs, array sizes and parameters; sampling cannot establish it", "anchors": ["aeolis/utils.py:interp_circular"]}
{"id": "C11", "title": "Normalisation yields fractions", "statement": "Normalising a vector gives a vector summing to one whenever its sum is non-zero, and the fill value everywhere otherwise; non-negative input gives values in [0,1]; ratios are preserved; normalising twice changes nothing; with a reference array each entry is divided by its reference where that is non-zero and is the fill value elsewhere.", "quantifier": "all vectors of any length, all fill values, all reference arrays", "why_tests_cant": "it is an identity/inequality over all real inputs, array sizes and parameters; sampling cannot establish it", "anchors": ["aeolis/utils.py:normalize"]}
{"id": "C12", "title": "Tiny negatives, and nothing else, are replaced", "statement": "Removing tiny negatives changes exactly the entries strictly between -max_error and 0, which become the replacement; with replacement 0 it is idempotent, never decreases an entry, changes no entry by max_error or more, and leaves a negative entry only if it is at most -max_error.", "quantifier": "all arrays, thresholds and replacements", "why_tests_cant": "it is an identity/inequality over all real inputs, array sizes and parameters; sampling cannot establish it", "anchors": ["aeolis/utils.py:prevent_tiny_negatives"]}
{"id": "C13", "title": "Complex masks scale and shift", "statement": "Applying a mask multiplies each cell by the real part and adds the imaginary part of the mask of that cell, repeated over trailing dimensions; mask 1 is the identity, a purely imaginary mask replaces the entry by its imaginary part, and applying two masks equals applying one combined mask.", "quantifier": "all arrays of any trailing dimensions and all masks", "why_tests_cant": "it is an identity/inequality over all real inputs, array sizes and parameters; sampling cannot establish it", "anchors": ["aeolis/utils.py:apply_mask"]}
{"id": "C14", "title": "Rotating a grid is a rigid, invertible motion", "statement": "Rotating points over an angle about an origin and then over the opposite angle about the same origin returns the points; distances between points are preserved; rotations about one origin compose by adding angles; the origin is fixed and the mean of the grid is the image of the mean.", "quantifier": "all coordinates, angles and origins, grids of any size", "why_tests_cant": "it is an identity/inequality over all real inputs, array sizes and parameters; sampling cannot establish it", "anchors": ["aeolis/utils.py:rotate", "aeolis/shear.py:rotate", "aeolis/fences.py:rotate"]}
{"id": "C15", "title": "Mean grain size lies within the grain size range", "statement": "The mean grain size computed for a cell with non-negative, not all zero top layer masses lies between the smallest and largest grain size, equals the grain size when only one fraction is present, and does not change when all masses are scaled by a common non-zero factor.", "quantifier": "all numbers of fractions, all masses and grain sizes", "why_tests_cant": "it is an identity/inequality over all real inputs, array sizes and parameters; sampling cannot establish it", "anchors": ["aeolis/utils.py:calc_mean_grain_size"]}
{"id": "C16", "title": "Immutable state variables keep their value", "statement": "A state variable that exists and has been made immutable keeps its value under every sequence of assignments until it is made mutable again, while assignments to every mutable or new variable take effect; a newly assigned variable is mutable. (The guarantee does not extend to dictionary.update, which the time step uses for solver results.)", "quantifier": "every sequence of assign / set_mutable / set_immutable operations on any variables", "why_tests_cant": "it quantifies over every history of calls; tests execute a few finite histories", "anchors": ["aeolis/model.py:ModelState"]}
{"id": "C17", "title": "BMI set/get round trip", "statement": "Setting a variable that names a spatial grid or a parameter and reading it back yields the value set (concentrations Ct and Cu yield it divided by the acceleration factor), no other variable or parameter changes, and setting an unknown name changes nothing and reads back as nothing; a grid shadows a parameter of the same name; immutable grids are not changed.", "quantifier": "every model state, parameter set, name and value", "why_tests_cant": "it quantifies over every history of calls; tests execute a few finite histories", "anchors": ["aeolis/model.py:AeoLiS.get_var", "aeolis/model.py:AeoLiS.set_var", "aeolis/model.py:AeoLiS.set_var_index"]}
{"id": "C18", "title": "Variable enumeration is a bijection", "statement": "For indices 0..count-1 the variable names are exactly the names of the spatial grids, each once, in alphabetical order; for larger indices -1 is returned, negative indices count from the end and fail below -count; setting by index sets exactly the variable with that name.", "quantifier": "every set of grids and every index", "why_tests_cant": "the input space is infinite; a test fixes finitely many values and cannot exclude a failing one", "anchors": ["aeolis/model.py:AeoLiS.get_var_name", "aeolis/model.py:AeoLiS.get_var_count", "aeolis/model.py:AeoLiS.set_var_index"]}
{"id": "C19", "title": "Every state variable gets exactly one shape", "statement": "Each documented state variable is listed under exactly one dimension tuple, and the array created for it has ny+1 rows and nx+1 columns followed by the number of layers and/or fractions as documented.", "quantifier": "all model dimensions and all state variables", "why_tests_cant": "the input space is infinite; a test fixes finitely many values and cannot exclude a failing one", "anchors": ["aeolis/constants.py:MODEL_STATE", "aeolis/model.py:AeoLiS._dims2shape", "aeolis/model.py:AeoLiS.dimensions"]}
{"id": "C20", "title": "The time step never exceeds the requested or configured one", "statement": "A step that is executed uses a time step not larger than the requested one (if positive) or else the configured one, and for explicit runs with a positive CFL number not larger than CFL divided by the summed maximum Courant frequencies; the step is positive whenever requested/configured step and limits are positive and the recent bed level change is not negative everywhere. (With an all-negative bed level change and the bed-level limiter active the step becomes negative.)", "quantifier": "all parameters, wind fields, grids, previous steps and bed changes", "why_tests_cant": "it is an identity/inequality over all real inputs, array sizes and parameters; sampling cannot establish it", "anchors": ["aeolis/model.py:AeoLiS.set_timestep"]}
{"id": "C21", "title": "Explicit scheme stays within the CFL limit in every cell", "statement": "For an executed explicit step with CFL number c > 0, |u_s| dt/ds + |u_n| dt/dn <= c in every grid cell.", "quantifier": "all grids, velocities, CFL numbers", "why_tests_cant": "it is an identity/inequality over all real inputs, array sizes and parameters; sampling cannot establish it", "anchors": ["aeolis/model.py:AeoLiS.set_timestep"]}
{"id": "C22", "title": "Simulation time advances and the run ends", "statement": "For implicit runs without bed-level limiter (dt > 0, accfac > 0) the run loop performs exactly the smallest number n of steps with tstart + n*dt*accfac > tstop and then stops. For an explicit run in calm wind no step ever advances time, so the loop never ends.", "quantifier": "all tstart, tstop, dt, accfac; unbounded number of loop iterations", "why_tests_cant": "it quantifies over every history of calls; tests execute a few finite histories", "anchors": ["aeolis/model.py:AeoLiSRunner.run", "aeolis/model.py:AeoLiS.update", "aeolis/model.py:AeoLiS.set_timestep"]}
{"id": "C23", "title": "Fast-forward steps only move the clock", "statement": "Calling update with a step dt < -1 advances the time by |dt|, executes no transport, bed or hydrodynamic process and counts no time step.", "quantifier": "all states and all dt < -1", "why_tests_cant": "it quantifies over every history of calls; tests execute a few finite histories", "anchors": ["aeolis/model.py:AeoLiS.update", "aeolis/model.py:AeoLiS.set_timestep"]}
{"id": "C24", "title": "The grid keeps its orientation across time steps", "statement": "After any number of fully executed time steps the grid coordinates are the ones the model was initialised with. (After a skipped step they are rotated and stay so.)", "quantifier": "all grids, angles and numbers of steps", "why_tests_cant": "it quantifies over every history of calls; tests execute a few finite histories", "anchors": ["aeolis/model.py:AeoLiS.grid_rotate", "aeolis/model.py:AeoLiS.update"]}
{"id": "C25", "title": "Order of processes in a time step", "statement": "An executed time step calls the processes in one fixed order (wind and hydrodynamics first, then supply limits and transport, then bed and vegetation), each once, depending only on the switches of the solver; the step counter grows by exactly one per executed step and the time by the accelerated step.", "quantifier": "all solver settings, all physics, all states, any number of steps", "why_tests_cant": "it quantifies over every history of calls; tests execute a few finite histories", "anchors": ["aeolis/model.py:AeoLiS.update"]}
{"id": "C26", "title": "Output statistics are the statistics of the steps since the last output", "statement": "At any moment the reported min, max, sum, average and variance of an output variable (of the kinds requested for it) are the minimum, maximum, sum, arithmetic mean and unbiased sample variance of the values at the end of the steps since the statistics were last cleared; the variance is never negative; without steps the average and variance are 0.", "quantifier": "every history of updates, outputs, clears and reads; every cell value sequence", "why_tests_cant": "it quantifies over every history of calls; tests execute a few finite histories", "anchors": ["aeolis/model.py:AeoLiSRunner.output_update", "aeolis/model.py:AeoLiSRunner.get_statistic", "aeolis/model.py:AeoLiSRunner.output_clear"]}
{"id": "C27", "title": "Every step of the runner succeeds", "statement": "Once a variable has been read through the runner or a record with a plain (non-statistic) variable has been written, no later bookkeeping operation of the runner fails. (If only statistics are requested, the first step raises an AttributeError.)", "quantifier": "all histories of steps, reads and records, all requested statistics", "why_tests_cant": "it quantifies over every history of calls; tests execute a few finite histories", "anchors": ["aeolis/model.py:AeoLiSRunner.update", "aeolis/model.py:AeoLiSRunner.get_var", "aeolis/model.py:AeoLiSRunner.output_write"]}
{"id": "C28", "title": "Output interval", "statement": "Consecutive output records written after the record at time zero are at least output_times apart in model time, the record times strictly increase when output_times > 0 and time increases, and no step ending output_times or more after the last record goes unrecorded.", "quantifier": "every sequence of step end times", "why_tests_cant": "it quantifies over every history of calls; tests execute a few finite histories", "anchors": ["aeolis/model.py:AeoLiSRunner.output_write", "aeolis/model.py:AeoLiSRunner.run"]}
{"id": "C29", "title": "netCDF records are append-only with contiguous time bounds", "statement": "Appending records adds exactly one time entry per call with the given time and values, never alters an earlier record, and after any number of appends the time bounds of record i are (time of record i-1, or 0 for the first; time of record i). A record with an unknown variable raises a key error after the time and the variables before it have been written.", "quantifier": "every sequence of appended records", "why_tests_cant": "it quantifies over every history of calls; tests execute a few finite histories", "anchors": ["aeolis/netcdf.py:append", "aeolis/netcdf.py:set_bounds"]}
{"id": "C30", "title": "Every requested output is produced once", "statement": "The output table built from the requested variables and statistics contains, for each requested variable, exactly the requested postfix (or none) of each mention and all globally requested statistics, without duplicates; names with two underscores are rejected.", "quantifier": "every list of requested variables and statistics", "why_tests_cant": "the input space is infinite; a test fixes finitely many values and cannot exclude a failing one", "anchors": ["aeolis/model.py:AeoLiSRunner.output_init"]}
{"id": "C31", "title": "Name resolution of the runner's get_var", "statement": "A name without underscore or dot resolves as in the base model; '<grid>_<stat>' of an output grid resolves to that statistic. (Names of grids or parameters that themselves contain an underscore do not resolve to themselves.)", "quantifier": "every state, output table and name", "why_tests_cant": "it quantifies over every string; tests sample a few literals", "anchors": ["aeolis/model.py:AeoLiSRunner.get_var"]}
{"id": "C32", "title": "Initial bed composition", "statement": "After initialisation without composition file every layer of every cell holds rho_g (1-porosity) thickness in total, distributed over the fractions proportionally to the given distribution (of that layer, if given per layer); all masses are non-negative; the bed equals the bathymetry file; a per-layer distribution with a wrong number of rows is rejected.", "quantifier": "all numbers of layers and fractions, distributions, densities", "why_tests_cant": "it is an identity/inequality over all real inputs, array sizes and parameters; sampling cannot establish it", "anchors": ["aeolis/bed.py:initialize"]}
{"id": "C33", "title": "A bed update keeps the mass of every layer", "statement": "If the net deposition in a cell is less than the top layer mass, updating the bed leaves the total mass of every layer of that cell unchanged, for erosion and deposition alike (up to the removal of small negative masses where erosion exceeds the mass of a layer). If it equals the top layer mass the top layer doubles; if it exceeds it, new layers of the mass of the top layer are put on top, the others move down, and the remainder of the deposition disappears.", "quantifier": "all numbers of layers and fractions, masses and pickups", "why_tests_cant": "it is an identity/inequality over all real inputs, array sizes and parameters; sampling cannot establish it", "anchors": ["aeolis/bed.py:update", "aeolis/bed.py:prevent_negative_mass", "aeolis/bed.py:arrange_layers"]}
{"id": "C34", "title": "A bed update balances every fraction", "statement": "Under the same condition the amount of each fraction in the bed column changes by minus its pickup, plus (in erosion) the net erosion times the fraction's share in the supplying sediment, or minus (in deposition) the net deposition times its share in the bottom layer.", "quantifier": "all numbers of layers and fractions, masses and pickups", "why_tests_cant": "it is an identity/inequality over all real inputs, array sizes and parameters; sampling cannot establish it", "anchors": ["aeolis/bed.py:update", "aeolis/bed.py:arrange_layers"]}
{"id": "C35", "title": "A bed update never creates negative mass", "statement": "If all masses are non-negative, every fraction's pickup is at most its mass in the top layer and the exchanged mass is at most the mass of each layer (less than the top layer for deposition), all masses are non-negative afterwards.", "quantifier": "all numbers of layers and fractions, masses and pickups", "why_tests_cant": "it is an identity/inequality over all real inputs, array sizes and parameters; sampling cannot establish it", "anchors": ["aeolis/bed.py:update", "aeolis/bed.py:prevent_negative_mass"]}
{"id": "C36", "title": "Bed level follows the net pickup", "statement": "With bed updating on, the bed level changes by minus the total pickup divided by rho_g (1-porosity) and the water level by the same amount if tides are on; with bed updating off neither changes. (For deposition larger than the top layer mass the bed level does not change at all.)", "quantifier": "all pickups, masses, densities", "why_tests_cant": "it is an identity/inequality over all real inputs, array sizes and parameters; sampling cannot establish it", "anchors": ["aeolis/bed.py:update"]}
{"id": "C37", "title": "Bed bookkeeping over a whole run", "statement": "Starting from layers of equal mass, through any sequence of bed updates whose pickups respect availability and single-layer deposition, all layers keep that mass, all masses stay non-negative, and the bed level equals the initial one minus the accumulated net pickup over rho_g (1-porosity).", "quantifier": "every sequence of pickups of any length", "why_tests_cant": "it quantifies over every history of calls; tests execute a few finite histories", "anchors": ["aeolis/bed.py:update"]}
{"id": "C38", "title": "Wave mixing only redistributes", "statement": "Mixing replaces the composition of the layers within the disturbance depth by their average: the total of each fraction over the mixed layers is unchanged, deeper layers are unchanged, masses stay non-negative, and without waves or with mixing off nothing changes.", "quantifier": "all numbers of layers, thicknesses, masses and wave heights", "why_tests_cant": "it is an identity/inequality over all real inputs, array sizes and parameters; sampling cannot establish it", "anchors": ["aeolis/bed.py:mixtoplayer"]}
{"id": "C39", "title": "Wet bed reset relaxes towards the initial bed", "statement": "Resetting changes only cells where water stands more than 1 cm above the bed; there the distance to the initial bed is multiplied by 1 - dt/T, so for dt <= T the bed never overshoots.", "quantifier": "all bed levels, water levels, steps and time scales", "why_tests_cant": "it is an identity/inequality over all real inputs, array sizes and parameters; sampling cannot establish it", "anchors": ["aeolis/bed.py:wet_bed_reset"]}
{"id": "C40", "title": "Reported bed level change is the change over the step", "statement": "The reported bed level change is the difference of the bed level after and before the step, its yearly rate scales it by a year over the accelerated step, and the running average is the convex combination with weight step/averaging time.", "quantifier": "all bed levels and parameters", "why_tests_cant": "it is an identity/inequality over all real inputs, array sizes and parameters; sampling cannot establish it", "anchors": ["aeolis/bed.py:average_change"]}
{"id": "C41", "title": "No avalanche below the static slope", "statement": "If the largest bed slope does not exceed the static angle of repose (or avalanching is off) the bed is unchanged; and avalanching never changes a cell on the border of the grid.", "quantifier": "all grids, bed levels, angles, iteration limits", "why_tests_cant": "it is an identity/inequality over all real inputs, array sizes and parameters; sampling cannot establish it", "anchors": ["aeolis/avalanching.py:avalanche", "aeolis/avalanching.py:calc_gradients"]}
{"id": "C42", "title": "Avalanching conserves sand except across the border", "statement": "Each avalanche iteration changes the summed bed level by exactly minus the sand routed into border cells; it is conserved if no cell next to the border slides towards it, and otherwise lost.", "quantifier": "all grids, bed levels, numbers of iterations", "why_tests_cant": "it is an identity/inequality over all real inputs, array sizes and parameters; sampling cannot establish it", "anchors": ["aeolis/avalanching.py:avalanche"]}
{"id": "C43", "title": "Avalanching ends below the dynamic slope or at the iteration limit", "statement": "Avalanching performs at most the configured number of redistributions and stops before that only when the largest slope is below the dynamic angle of repose.", "quantifier": "all grids, bed levels and limits", "why_tests_cant": "it quantifies over every history of calls; tests execute a few finite histories", "anchors": ["aeolis/avalanching.py:avalanche"]}
{"id": "C44", "title": "Initial transport weights are fractions", "statement": "With bed interaction parameter in [0,1] and non-negative concentrations and masses, the transport weights of a cell are non-negative and sum to one whenever the cell has sediment in bed or air.", "quantifier": "all numbers of fractions, concentrations, masses", "why_tests_cant": "it is an identity/inequality over all real inputs, array sizes and parameters; sampling cannot establish it", "anchors": ["aeolis/transport.py:compute_weights"]}
{"id": "C45", "title": "Renormalised weights always sum to one", "statement": "Renormalising weights from any fraction index on returns weights that sum to one in every cell, for any input; it keeps the weights of earlier fractions if any later weight is available, and keeps weights non-negative if the earlier ones sum to at most one.", "quantifier": "all weights, numbers of fractions, start indices", "why_tests_cant": "it is an identity/inequality over all real inputs, array sizes and parameters; sampling cannot establish it", "anchors": ["aeolis/transport.py:renormalize_weights"]}
{"id": "C46", "title": "Pickup does not exceed the sediment available", "statement": "When the solver iteration of a fraction converges, the pickup of that fraction does not exceed its top layer mass in any cell; the weight correction of an iteration makes the deficit of the corrected cells exactly zero. (When the iteration limit is hit, pickup can exceed the mass.)", "quantifier": "all cells, concentrations, masses, iteration limits and linear solver results", "why_tests_cant": "it quantifies over every history of calls; tests execute a few finite histories", "anchors": ["aeolis/model.py:AeoLiS.solve"]}
{"id": "C47", "title": "Removing negative concentrations conserves sediment", "statement": "Removing negative concentrations yields non-negative concentrations with the same total whenever the total is non-negative, and keeps zeros and ratios of the positive ones.", "quantifier": "all concentration vectors of any length", "why_tests_cant": "it is an identity/inequality over all real inputs, array sizes and parameters; sampling cannot establish it", "anchors": ["aeolis/model.py:AeoLiS.solve"]}
{"id": "C48", "title": "The one-dimensional transport system has one, non-negative, solution", "statement": "For a transect with onshore transport velocity everywhere (flux/noflux/constant offshore boundary and the same kinds onshore), the assembled linear system has exactly one solution, which is non-negative whenever the right hand side is. On a transect with prescribed values at the ends it has exactly one solution for wind from any direction in each cell, non-negative as long as the wind nowhere blows apart.", "quantifier": "all numbers of cells, velocities (>= 0, or any on a transect), cell sizes, time steps, implicitness", "why_tests_cant": "it is an identity/inequality over all real inputs, array sizes and parameters; sampling cannot establish it", "anchors": ["aeolis/model.py:AeoLiS.solve"]}
{"id": "C49", "title": "Sediment budget of a transport step", "statement": "Over one implicit (Euler backward) transport step the sediment in the air between the first and last column changes by exactly the exchange with the bed plus inflow minus outflow. (Proved where the cross-shore velocity does not change sign along a row. For any velocities and any implicitness the exact balance is proved too: where neighbouring velocities have different directions all that both cells carry is lost, on a transect alongshore velocity acts as a sink, and with Crank-Nicolson or Euler forward the air takes up another amount than the bed gives.)", "quantifier": "all grid sizes, velocities, values of the implicitness, weights, previous concentrations and solutions of the system", "why_tests_cant": "it is an identity/inequality over all real inputs, array sizes and parameters; sampling cannot establish it", "anchors": ["aeolis/model.py:AeoLiS.solve"]}
{"id": "C50", "title": "Boundary condition selection", "statement": "Every combination of offshore, onshore and lateral boundary settings either is accepted with the documented boundary rows or raises an error; unknown settings are rejected. (An offshore 'noflux' setting silently overrides the onshore setting, and the onshore value 'noflux' is rejected otherwise.) In the solution the end cells hold what the settings say: the prescribed share of the reference capacity, the prescribed flux over the speed, the value of the neighbour, or the linear extrapolation.", "quantifier": "every combination of three strings", "why_tests_cant": "it quantifies over every string; tests sample a few literals", "anchors": ["aeolis/model.py:AeoLiS.solve"]}
{"id": "C51", "title": "Alongshore transport direction does not matter for the budget", "statement": "The sediment budget of a transport step closes for alongshore transport in either direction. (True for alongshore velocities that do not vary alongshore; for transport towards lower row numbers the velocity of the wrong row is used, giving an exactly known budget error.)", "quantifier": "all planar grids, alongshore velocities of one sign, solutions of the system", "why_tests_cant": "it is an identity/inequality over all real inputs, array sizes and parameters; sampling cannot establish it", "anchors": ["aeolis/model.py:AeoLiS.solve"]}
{"id": "C52", "title": "No transport below the threshold", "statement": "The equilibrium concentration is never negative, is zero in calm cells and in cells where the shear velocity does not exceed the threshold (0.8 threshold for 'dk'), in particular where the threshold is infinite, for every transport formulation; unknown formulations are rejected.", "quantifier": "all shear velocities, thresholds, grain speeds, coefficients", "why_tests_cant": "it is an identity/inequality over all real inputs, array sizes and parameters; sampling cannot establish it", "anchors": ["aeolis/transport.py:equilibrium"]}
{"id": "C53", "title": "Transport capacity grows with the wind", "statement": "For fixed grain speed and threshold the equilibrium concentration is non-decreasing in the shear velocity and (except 'dk', 'kawamura') non-increasing in the threshold.", "quantifier": "all shear velocities, thresholds and coefficients", "why_tests_cant": "it is an identity/inequality over all real inputs, array sizes and parameters; sampling cannot establish it", "anchors": ["aeolis/transport.py:equilibrium"]}
{"id": "C54", "title": "Acceleration factor", "statement": "The transport capacity of a step is the capacity at acceleration factor 1 times the factor and does not depend on earlier steps. (The grain-size-only capacity, and all capacities when transport is switched off, are instead multiplied by the factor again in every step.)", "quantifier": "all wind conditions, thresholds, formulations, numbers of steps", "why_tests_cant": "it quantifies over every history of calls; tests execute a few finite histories", "anchors": ["aeolis/transport.py:equilibrium"]}
{"id": "C55", "title": "Moisture never lowers the threshold", "statement": "With the incremental moisture formulations (belly_johnson, hotta, chepil, saleh_fryear_mod, shao, dong_2002, gregory_darwish) the threshold after the moisture correction is at least the one before. (The replacing formulations saleh_fryear, cornelis and dong_2007 can lower it.)", "quantifier": "all moisture contents, thresholds, parameters", "why_tests_cant": "it is an identity/inequality over all real inputs, array sizes and parameters; sampling cannot establish it", "anchors": ["aeolis/threshold.py:compute_moisture"]}
{"id": "C56", "title": "Wet cells do not erode", "statement": "Where the gravimetric moisture exceeds 6.4 % the threshold is infinite, and where it is at most the residual content plus 0.5 % it is unchanged (unless above 6.4 %), for every formulation; in between it is the value of the formulation asked for, for all ten of them; without moisture thresholds exactly the cells flooded by more than the tolerance have an infinite threshold.", "quantifier": "all moisture contents and formulations", "why_tests_cant": "it is an identity/inequality over all real inputs, array sizes and parameters; sampling cannot establish it", "anchors": ["aeolis/threshold.py:compute_moisture"]}
{"id": "C57", "title": "The non-erodible layer is protected", "statement": "With the non-erodible layer on, the threshold is infinite in exactly the cells whose bed is at most 1 cm above the layer (in addition to already infinite ones) for all fractions, so there equilibrium concentration is zero.", "quantifier": "all bed and layer levels, all fractions", "why_tests_cant": "it is an identity/inequality over all real inputs, array sizes and parameters; sampling cannot establish it", "anchors": ["aeolis/threshold.py:non_erodible", "aeolis/transport.py:equilibrium"]}
{"id": "C58", "title": "Sheltering factor", "statement": "The roughness correction factor lies between 0 and sqrt(1+m*beta/sigma), is 1 without immobile fractions, and is at least 1 exactly when (beta/sigma)(1-m*g) >= 1 or no immobile share g (for 0<m<=1). If m*g exceeds 1 all thresholds of the cell become not-a-number.", "quantifier": "all mass distributions, thresholds, parameters", "why_tests_cant": "it is an identity/inequality over all real inputs, array sizes and parameters; sampling cannot establish it", "anchors": ["aeolis/threshold.py:compute_sheltering"]}
{"id": "C60", "title": "Water level never below the bed and waves depth-limited", "statement": "After interpolating the hydrodynamics the water level is at least the bed level in every cell and equal to the still water level where that is above the bed; the unmasked wave height is between 0 and gamma times the water depth.", "quantifier": "all bed levels, tide and wave series, times, masks", "why_tests_cant": "it is an identity/inequality over all real inputs, array sizes and parameters; sampling cannot establish it", "anchors": ["aeolis/hydro.py:interpolate"]}
{"id": "C61", "title": "Soil moisture by infiltration stays physical", "statement": "With the infiltration method the moisture is in [0, porosity] after every step, equals the porosity in flooded cells and elsewhere decays exponentially with half-life Tdry independent of how the interval is split into steps.", "quantifier": "all initial moistures, steps, splits, runup levels", "why_tests_cant": "it quantifies over every history of calls; tests execute a few finite histories", "anchors": ["aeolis/hydro.py:update"]}
{"id": "C62", "title": "Surface moisture stays between residual and saturated", "statement": "With the surface moisture method the moisture content after every step is at most the saturated content and at least the minimum of residual and saturated content outside flooded cells, and equals the saturated content in flooded cells.", "quantifier": "all states, meteorology, parameters", "why_tests_cant": "it quantifies over every history of calls; tests execute a few finite histories", "anchors": ["aeolis/hydro.py:update"]}
{"id": "C63", "title": "Runup formula", "statement": "Runup, setup and swash are zero without waves and non-negative otherwise, runup is at least the setup; for positive slopes and periods that are not negative the scalar and array forms agree except at an Iribarren number of exactly 0.3, where the array form gives zero. (For slopes that are not positive only the array form gives runup.) Setup, swash and runup are those of Stockdon et al. (2006) for dissipative and other beaches. Total water level is still water level plus runup, set-up level is still water level plus setup, and they are ordered. (With runup off, the default, total water level and set-up level are never computed and keep their initial value.)", "quantifier": "all wave heights, periods and slopes", "why_tests_cant": "it is an identity/inequality over all real inputs, array sizes and parameters; sampling cannot establish it", "anchors": ["aeolis/hydro.py:calc_runup_stockdon"]}
{"id": "C64", "title": "Soil water retention stays between the main curves", "statement": "Where the main wetting curve is not above the main drying curve, the scanning curves and the selected moisture lie between them (with the default parameters the main curves cross deep above the groundwater); the selected moisture is one of the main or scanning curve values; wetting and drying scanning flags are never both set after a step.", "quantifier": "all groundwater histories and parameters", "why_tests_cant": "it quantifies over every history of calls; tests execute a few finite histories", "anchors": ["aeolis/hydro.py:SWR_curve", "aeolis/hydro.py:update"]}
{"id": "C65", "title": "Groundwater does not rise above the bed", "statement": "After each groundwater step the groundwater level is at most the bed level in cells above the set-up level and equals the set-up level in all cells below it. The equation is solved with the set-up level at the shoreline, the configured condition in the last three cells and, if switched on, the bed level on the seepage face.", "quantifier": "all groundwater, bed and water levels", "why_tests_cant": "it is an identity/inequality over all real inputs, array sizes and parameters; sampling cannot establish it", "anchors": ["aeolis/hydro.py:update"]}
{"id": "C66", "title": "Salt content stays physical", "statement": "The salt content of the top layer stays between 0 and 1 and is 1 in flooded cells. (The computation fails with KeyError whenever no meteorological series was read, in particular with the default infiltration method, and with a NameError when the moisture process is off.)", "quantifier": "all states, step sizes, precipitation, water levels", "why_tests_cant": "it quantifies over every history of calls; tests execute a few finite histories", "anchors": ["aeolis/hydro.py:update"]}
{"id": "C67", "title": "Vegetation stays in range", "statement": "With the height-based growth model, after every growth step 0 <= height <= maximum height, 0 <= density <= 1 and density = (height/maximum)^2 in surviving cells; germination and lateral flags stay in [0,1]. A step adds the growth rate per year, less the burial, times the accelerated step over 31557600 s; undisturbed vegetation approaches the maximum height geometrically.", "quantifier": "every sequence of germination and growth steps, all burial rates", "why_tests_cant": "it quantifies over every history of calls; tests execute a few finite histories", "anchors": ["aeolis/vegetation.py:grow", "aeolis/vegetation.py:germinate"]}
{"id": "C68", "title": "Flooded or low vegetation dies", "statement": "After a growth step, cells flooded by more than 1 cm (tides on) and cells below the minimum elevation have zero density, height, germination and lateral flags; dead cells regrow only after germination or lateral expansion.", "quantifier": "all states", "why_tests_cant": "it is an identity/inequality over all real inputs, array sizes and parameters; sampling cannot establish it", "anchors": ["aeolis/vegetation.py:grow"]}
{"id": "C69", "title": "Density-based vegetation growth", "statement": "With the density-based growth model and growth switched on, vegetation density stays between 0 and its maximum and the height is that of the density, provided the configured step does not exceed the characteristic growth time; no vegetation appears in bare cells; growth rates below one per year are lost; with growth switched off vegetation still grows by the number of denser neighbours per year.", "quantifier": "all parameter values, bed and water level histories, random numbers and grids", "why_tests_cant": "it quantifies over every history of calls; tests execute a few finite histories", "anchors": ["aeolis/vegetation.py:germinate", "aeolis/vegetation.py:grow"]}
{"id": "C70", "title": "Vegetation and fences reduce the shear", "statement": "The Okin reduction multiplies the shear velocity by a factor in [0,1] that is 1 upwind of all elements and beyond 20 heights, then applies a floor of 0.01 m/s; so the shear velocity never exceeds the larger of its old value and 0.01, and its direction is kept.", "quantifier": "all transects, element heights, wind directions", "why_tests_cant": "it is an identity/inequality over all real inputs, array sizes and parameters; sampling cannot establish it", "anchors": ["aeolis/vegetation.py:vegshear_okin", "aeolis/fences.py:fence_shear1d"]}
{"id": "C71", "title": "Raupach reduction factor", "statement": "The vegetation factor is in (0,1], 1 without vegetation, non-increasing in density; shear direction is preserved.", "quantifier": "all densities and roughness parameters", "why_tests_cant": "it is an identity/inequality over all real inputs, array sizes and parameters; sampling cannot establish it", "anchors": ["aeolis/vegetation.py:vegshear_raupach"]}
{"id": "C72", "title": "Fences", "statement": "After every fence update the fence height is zero or between 0.1 and 1.5 m, and a fence once removed because it exceeded 1.5 m never returns.", "quantifier": "every history of bed levels", "why_tests_cant": "it quantifies over every history of calls; tests execute a few finite histories", "anchors": ["aeolis/fences.py:update_fence_height", "aeolis/fences.py:initialize"]}
{"id": "C73", "title": "Shear velocity and stress conversions are inverse", "statement": "Converting shear velocity to stress and back (and vice versa) returns the original components, with stress magnitude rho u*^2, and calm cells have zero stress and velocity.", "quantifier": "all velocity fields and positive densities", "why_tests_cant": "it is an identity/inequality over all real inputs, array sizes and parameters; sampling cannot establish it", "anchors": ["aeolis/wind.py:velocity_stress", "aeolis/wind.py:stress_velocity"]}
{"id": "C74", "title": "Wind decomposition", "statement": "The two wind components have the wind speed as length, shear velocity is proportional to wind speed with factor kappa/ln(z/z0), calm wind gives zero shear.", "quantifier": "all wind speeds, directions, grid orientations", "why_tests_cant": "it is an identity/inequality over all real inputs, array sizes and parameters; sampling cannot establish it", "anchors": ["aeolis/wind.py:interpolate"]}
{"id": "C75", "title": "Shear over a transect", "statement": "Over a flat bed the shear stress is unchanged; it depends on bed slopes only, never falls below a tenth of the flat-bed value, keeps the wind direction, and is mirror-symmetric: the reversed wind over the mirrored bed gives the mirrored stress.", "quantifier": "all bed profiles, grid sizes, winds", "why_tests_cant": "it is an identity/inequality over all real inputs, array sizes and parameters; sampling cannot establish it", "anchors": ["aeolis/wind.py:compute_shear1d"]}
{"id": "C76", "title": "Generated wind series", "statement": "A generated series has 1 + ceil(duration/dt) samples at times 0, dt, 2dt, ...; every speed is non-negative and less than the last bin centre minus one half plus the bin size (or zero); the transition matrix rows sum to one so that a next state exists for every random number below one.", "quantifier": "all durations, steps, random draws, numbers of states", "why_tests_cant": "it quantifies over every history of calls; tests execute a few finite histories", "anchors": ["aeolis/model.py:WindGenerator"]}
{"id": "C77", "title": "Dune erosion only removes sand landward of the toe", "statement": "Dune erosion changes no bed when the total water level does not exceed the toe; otherwise no bed level is raised and cells seaward of the toe and landward of the eroded stretch are unchanged.", "quantifier": "all profiles, water levels and wave conditions", "why_tests_cant": "it is an identity/inequality over all real inputs, array sizes and parameters; sampling cannot establish it", "anchors": ["aeolis/erosion.py:run_ph12"]}
{"id": "C78", "title": "Grid metrics", "statement": "Cell areas are the products of the cell sizes and their stored inverses are the exact inverses when no cell size is zero; for transects the cell sizes are the coordinate differences; for planar grids all cells have the size of the first one.", "quantifier": "all grids", "why_tests_cant": "it is an identity/inequality over all real inputs, array sizes and parameters; sampling cannot establish it", "anchors": ["aeolis/gridparams.py:initialize"]}
{"id": "C79", "title": "Grain size percentiles", "statement": "For positive top layer masses the grain size percentile (D10, D50, ...) exists for every percentage, lies between zero and the largest grain size and does not decrease with the percentage.", "quantifier": "all numbers of fractions, all masses, all grain sizes in non-decreasing order, all percentages", "why_tests_cant": "it is an identity/inequality over all real inputs, array sizes and parameters; sampling cannot establish it", "anchors": ["aeolis/utils.py:calc_grain_size"]}
{"id": "C80", "title": "Avalanching and the non-erodible layer", "statement": "A redistribution of sand by avalanching that starts from a bed above the non-erodible layer leaves the bed at most 0.02 sqrt(2) tan(theta_dyn) below the layer (cells of at least 0.3 m); further redistributions of the same call deepen this at most by the factor 1 + 0.2 sqrt(2)/ds each, and at most by 0.2 sqrt(2) m each. (The layer itself is not respected: a sloping cell already below it sends out more sand the deeper it lies.)", "quantifier": "all grids, beds, non-erodible layers and cell sizes of at least sqrt(2)/5 m", "why_tests_cant": "it is an identity/inequality over all real inputs, array sizes and parameters; sampling cannot establish it", "anchors": ["aeolis/avalanching.py:avalanche"]}
{"id": "C81", "title": "Weights and concentrations stay physical through the solver", "statement": "One call of the transport solver started with non-negative weights ends with weights that are non-negative and sum to at most one in every cell, with non-negative concentrations, and without pickup beyond the top layer for every fraction whose iteration converged; with at least one allowed iteration it always returns.", "quantifier": "all numbers of fractions, cells and iterations, all masses and equilibrium concentrations, any linear solver with non-negative total result", "why_tests_cant": "it quantifies over every history of calls; tests execute a few finite histories", "anchors": ["aeolis/model.py:AeoLiS.solve", "aeolis/transport.py:renormalize_weights"]}
{"id": "C82", "title": "Constant grain speed", "statement": "With the constant grain speed method the grain speed is a unit vector along the shear velocity, along the wind where there is no shear, and zero in calm cells; capacity is zero in cells with zero grain speed or zero shear, so no division by zero reaches the result. With the method 'windspeed' grains move with the wind, with 'duran' with the speed computed for their size, and other names are refused.", "quantifier": "all wind and shear vectors, thresholds including infinite and not-a-number ones", "why_tests_cant": "it is an identity/inequality over all real inputs, array sizes and parameters; sampling cannot establish it", "anchors": ["aeolis/transport.py:constant_grainspeed", "aeolis/transport.py:equilibrium"]}
{"id": "C83", "title": "Threshold mask", "statement": "The mask multiplies the threshold by its real part and adds its imaginary part; a mask of 1 has no effect and infinite thresholds stay infinite under a positive factor. (A mask with zero real part turns the infinite threshold of a flooded cell into not-a-number.)", "quantifier": "all thresholds, masks and flooded cells", "why_tests_cant": "it is an identity/inequality over all real inputs, array sizes and parameters; sampling cannot establish it", "anchors": ["aeolis/threshold.py:compute", "aeolis/utils.py:apply_mask"]}
{"id": "C84", "title": "Thresholds have no memory", "statement": "With the grain size threshold on and no threshold file, the thresholds computed in a step depend only on the conditions of that step. (Off, the corrections compound step by step; with a threshold file a cell that once was at the non-erodible layer keeps an infinite threshold.)", "quantifier": "all conditions, previous thresholds, numbers of steps", "why_tests_cant": "it quantifies over every history of calls; tests execute a few finite histories", "anchors": ["aeolis/threshold.py:compute"]}
{"id": "C85", "title": "Surface properties only raise the threshold", "statement": "The threshold after all corrections (correcting moisture formulations, flooding, salt, non-erodible layer, masks that do not lower it; no sheltering) is at least the grain size threshold for every fraction. The dry layer and humidity options fail because their functions do not exist.", "quantifier": "all states, parameters and fractions", "why_tests_cant": "it is an identity/inequality over all real inputs, array sizes and parameters; sampling cannot establish it", "anchors": ["aeolis/threshold.py:compute"]}
{"id": "C86", "title": "Groundwater steps cover the time step", "statement": "The groundwater is advanced in equal steps of whole seconds that together cover the time step up to a rest shorter than one of them. (A time step shorter than the reduction factor, 10 s by default, divides by zero; an unknown landward boundary is reported as TypeError instead of ValueError.)", "quantifier": "all time steps and reduction factors", "why_tests_cant": "the input space is infinite; a test fixes finitely many values and cannot exclude a failing one", "anchors": ["aeolis/hydro.py:update"]}
{"id": "C87", "title": "Groundwater at rest stays at rest", "statement": "A flat groundwater table at the level of the sea and below the bed stays flat through any number of steps on a grid with equal cell sizes. Each step integrates in time to fourth order. (On a grid with unequal cell sizes a flat table does not stay: the code adds neighbouring levels where it should subtract them.)", "quantifier": "all levels, numbers of cells and steps, shorelines, hydraulic parameters", "why_tests_cant": "it is an identity/inequality over all real inputs, array sizes and parameters; sampling cannot establish it", "anchors": ["aeolis/hydro.py:Boussinesq", "aeolis/hydro.py:update"]}
{"id": "C88", "title": "Suction head at reversals", "statement": "The search for the suction head at a reversal on a drying scanning curve ends and returns the first multiple of 0.01 cm meeting its criterion, provided the residual content of the drying curve is not above that of the wetting curve. (Otherwise it may never end.) At a reversal on a wetting scanning curve the head is the one at which the main wetting curve has the wanted moisture. (With a negative alfaw, as in the defaults, it is always zero.) At a reversal on a main curve the moisture does not jump.", "quantifier": "all retention parameters and moisture states", "why_tests_cant": "the input space is infinite; a test fixes finitely many values and cannot exclude a failing one", "anchors": ["aeolis/hydro.py:hdelta"]}
{"id": "C89", "title": "Evaporation", "statement": "Evaporation is not negative for physical conditions and does not decrease with radiation or wind speed; the saturation pressure rises with temperature and the slope used is its derivative up to rounding of a constant; in saturated air evaporation takes no more than the energy of the radiation.", "quantifier": "all meteorological conditions in physical ranges", "why_tests_cant": "it is an identity/inequality over all real inputs, array sizes and parameters; sampling cannot establish it", "anchors": ["aeolis/hydro.py:evaporation", "aeolis/hydro.py:saturation_pressure"]}
{"id": "C90", "title": "Infiltration from runup", "statement": "On a grid with equal cell sizes the distribution of infiltrated water is between 0 and 1, 1 at two thirds of the way from shoreline to runup limit and 0 outside that stretch; without waves nothing infiltrates; when the runup covers the whole transect the distribution is not within these bounds: from the first cell it decreases linearly from three times the infiltration rate to zero at the landward end.", "quantifier": "all shoreline and runup positions, cell sizes", "why_tests_cant": "it is an identity/inequality over all real inputs, array sizes and parameters; sampling cannot establish it", "anchors": ["aeolis/hydro.py:runup_overheight_distr"]}
{"id": "C91", "title": "Germination and lateral expansion", "statement": "The probability per step is 1 - (1 - p)^(step/year) and, applied in every step of a year, gives the configured probability per year; a bare cell germinates only where the bed does not erode and the random number is at most that probability; lateral expansion reaches a cell only if a cell sharing a side with it is denser.", "quantifier": "all probabilities, step sizes, random numbers, density fields and grid sizes", "why_tests_cant": "the input space is infinite; a test fixes finitely many values and cannot exclude a failing one", "anchors": ["aeolis/vegetation.py:germinate"]}
{"id": "C92", "title": "Aerodynamic roughness", "statement": "The roughness used for the shear velocity: the constant (or a thirtieth of it), a thirtieth of the mean grain size (within the grain size range), or the saltation-dependent formula, which is at least d90/30 and undefined only at the threshold itself and uses the percentiles of the bed (twice the size for a single fraction); unknown methods are rejected.", "quantifier": "all parameter values and bed compositions", "why_tests_cant": "it is an identity/inequality over all real inputs, array sizes and parameters; sampling cannot establish it", "anchors": ["aeolis/wind.py:calculate_z0"]}
{"id": "C93", "title": "Flow separation on transects", "statement": "Flow separation multiplies the components of the shear by a factor between 0 and 1 that is 1 where the separation surface touches the bed and 0 where it is 0.1 m above it; the total shear velocity that drives transport is left as it was.", "quantifier": "all bed profiles, separation surfaces and winds", "why_tests_cant": "it is an identity/inequality over all real inputs, array sizes and parameters; sampling cannot establish it", "anchors": ["aeolis/wind.py:shear"]}
{"id": "C94", "title": "Printed numbers read back within the printed precision", "statement": "A number printed by the configuration writer and parsed again is a number that differs by at most half a unit of the last printed decimal (six decimals below one, two decimals from one on), and is unchanged if it has no more decimals; other numbers are changed.", "quantifier": "every rational number", "why_tests_cant": "the input space is infinite; a test fixes finitely many values and cannot exclude a failing one", "anchors": ["aeolis/utils.py:print_value", "aeolis/inout.py:parse_value"]}
{"id": "C95", "title": "Grid orientation", "statement": "Rotating the grid over its computed orientation puts the first row on one level, in ascending order, except for rows running towards smaller x and larger y, which come out descending. The warning on descending grids looks at the coordinates before rotation.", "quantifier": "all grids of any orientation", "why_tests_cant": "it is an identity/inequality over all real inputs, array sizes and parameters; sampling cannot establish it", "anchors": ["aeolis/gridparams.py:initialize", "aeolis/utils.py:rotate"]}
{"id": "C96", "title": "Distribution of generated winds", "statement": "The Markov chain of the wind generator has as stationary distribution the normalised products of its vector and weighted sums; the fitted vector is one for which that distribution agrees with the Weibull target up to 2e-10; the target is a positive distribution, proportional to the Weibull density at the centres of the bins, and every iterate sums to one.", "quantifier": "all numbers of states, all Weibull parameters, all iteration counts", "why_tests_cant": "it is an identity/inequality over all real inputs, array sizes and parameters; sampling cannot establish it", "anchors": ["aeolis/model.py:WindGenerator"]}
{"id": "C97", "title": "Finite-volume solver: the linear system", "statement": "For every accepted regular grid, time step and implicitness, whatever the wind along the rows, the finite-volume solvers build a system with exactly one solution; with Euler backward (and in the steady version) non-negative concentrations and inputs give non-negative concentrations for every time step.", "quantifier": "all grid sizes other than two rows, all winds along the rows, winds across towards higher rows or uniform, all boundary settings but lateral gradient, all right hand sides", "why_tests_cant": "the input space is infinite; a test fixes finitely many values and cannot exclude a failing one", "anchors": ["aeolis/model.py:AeoLiS.solve_pieter", "aeolis/model.py:AeoLiS.solve_steadystatepieter"]}
{"id": "C98", "title": "Finite-volume solver: sediment budget", "statement": "The growth of the sediment in the air equals the uptake from the bed minus the settling plus what enters through the boundaries, for every implicitness; nothing is lost between cells. (False for winds towards lower rows and for the steady solver on circular grids; on transects up to the increment of the last iteration.)", "quantifier": "all grid sizes, concentrations, weights, flux or gradient ends, flux or circular sides", "why_tests_cant": "it is an identity/inequality over all real inputs, array sizes and parameters; sampling cannot establish it", "anchors": ["aeolis/model.py:AeoLiS.solve_pieter", "aeolis/model.py:AeoLiS.solve_steadystatepieter"]}
{"id": "C99", "title": "Finite-volume solver: one call", "statement": "A call of the solver returns non-negative concentrations and weights that sum to at most one; a converged fraction is picked up at most to what the top layer holds plus the tolerance; with at least one iteration it always returns; in the first time step only the weights change.", "quantifier": "all numbers of cells, fractions and iterations", "why_tests_cant": "the input space is infinite; a test fixes finitely many values and cannot exclude a failing one", "anchors": ["aeolis/model.py:AeoLiS.solve_pieter", "aeolis/model.py:AeoLiS.solve_steadystatepieter"]}
{"id": "C100", "title": "Finite-volume solver: settings", "statement": "Exactly the documented boundary conditions are accepted, the others raise NotImplementedError or ValueError; the solver is chosen by its name and the implicitness by the scheme. An end of kind constant keeps its concentration in the solver in time and grows by the prescribed value in every iteration of the steady solver.", "quantifier": "all names of boundary conditions and solvers, all grids, any number of iterations", "why_tests_cant": "it quantifies over every string; tests sample a few literals", "anchors": ["aeolis/model.py:AeoLiS.solve_pieter", "aeolis/model.py:AeoLiS.solve_steadystatepieter", "aeolis/model.py:AeoLiS.euler_backward"]}
{"id": "C101", "title": "Reference capacity at flux boundaries", "statement": "The capacity to which a prescribed boundary flux refers is the capacity at the undisturbed shear velocity and the threshold of the grain size alone; the formulation with grain size factor uses the local capacity, those of Kawamura and Lettau keep an earlier value.", "quantifier": "all formulations, winds, thresholds and parameters", "why_tests_cant": "it is an identity/inequality over all real inputs, array sizes and parameters; sampling cannot establish it", "anchors": ["aeolis/transport.py:equilibrium"]}
{"id": "C102", "title": "Bed update is local", "statement": "The bed update of a grid gives every cell with non-negative top layer mass what the update of that cell alone gives: other cells, their number and order do not matter, although the code skips steps when no cell of the grid needs them. (With a negative top layer mass the result depends on other cells.)", "quantifier": "all grids, layers, fractions, masses and pickups", "why_tests_cant": "the input space is infinite; a test fixes finitely many values and cannot exclude a failing one", "anchors": ["aeolis/bed.py:update", "aeolis/bed.py:prevent_negative_mass"]}
{"id": "C103", "title": "A run is the iteration of callback and update", "statement": "A completed run goes from the first state through rounds of callback and update to the first state beyond the stop time; the callback is called once per round with the state before the update; the output records are those of the output rule at the times of all states. A run completes exactly under stated conditions: no restart file, no restart output due, a snapshot variable written at the start (or values asked by the callback), the first step executed. (A restart file is never loaded, and restart output never written: both fail.)", "quantifier": "all models, callbacks, output settings and run lengths", "why_tests_cant": "it quantifies over every history of calls; tests execute a few finite histories", "anchors": ["aeolis/model.py:AeoLiSRunner.run", "aeolis/model.py:AeoLiSRunner.output_write", "aeolis/model.py:AeoLiSRunner.update", "aeolis/model.py:AeoLiSRunner.load_restartfile", "aeolis/model.py:AeoLiSRunner.print_stats"]}
{"id": "C104", "title": "Progress messages", "statement": "The average time steps in the progress messages are averages over consecutive groups of steps that together make up all steps up to the last message; in a run of at most a minute there is at most one message per whole percentage, in increasing order.", "quantifier": "all runs, time steps and wall clock readings", "why_tests_cant": "it quantifies over every history of calls; tests execute a few finite histories", "anchors": ["aeolis/model.py:AeoLiSRunner.print_progress"]}
{"id": "C105", "title": "Callback definition", "statement": "A callback text with one colon names the function of a file; a missing file and a second colon are errors; text without colon and missing functions are ignored; a callable is used as it is; the argument of a run overrides the configuration.", "quantifier": "all texts, files and functions", "why_tests_cant": "it quantifies over every string; tests sample a few literals", "anchors": ["aeolis/model.py:AeoLiSRunner.parse_callback", "aeolis/model.py:AeoLiSRunner.run"]}
{"id": "C106", "title": "Hotstart files", "statement": "After loading hotstart files every state variable with a file holds its numbers in the shape it had and can no longer be assigned by the model, everything else is unchanged; loading fails exactly if a file named after a state variable cannot be read or has another number of values, or the variable is not an array.", "quantifier": "all sets of files and model states", "why_tests_cant": "the input space is infinite; a test fixes finitely many values and cannot exclude a failing one", "anchors": ["aeolis/model.py:AeoLiSRunner.load_hotstartfiles", "aeolis/model.py:ModelState"]}
{"id": "C107", "title": "Steady-state solver: linear system", "statement": "The steady-state solver accepts flux, constant, uniform and gradient at both ends and constant and circular at the sides and rejects everything else; with onshore transport and a flux or constant offshore end its system has exactly one solution, which is not negative; with circular sides its solutions are exactly the states that a time step of the default solver leaves unchanged; in it the bed of a transect supplies what the wind carries out minus what it carries in; along a uniform transect the concentration approaches the equilibrium geometrically; where grains do not slow down it nowhere exceeds the largest capacity and the values at the ends. (With several sediment fractions its first time step raises an error, and constant sides hold the equilibrium concentration divided by the adaptation time.)", "quantifier": "all boundary settings, all grid sizes other than two rows, all cell sizes, winds towards the shore, adaptation times, right hand sides and concentrations", "why_tests_cant": "the input space is infinite; a test fixes finitely many values and cannot exclude a failing one", "anchors": ["aeolis/model.py:AeoLiS.solve_steadystate"]}
{"id": "C108", "title": "Computational grid of the shear module covers the input grid", "statement": "For every wind direction, grid size, shear of the cells and orientation the computational grid, turned into the wind, covers every cell of the input grid, provided the buffer is at least one computational cell (plus the effect of the tenth of a degree by which directions parallel to the axes are turned).", "quantifier": "all grids of equal parallelograms, cell sizes, buffers and wind directions", "why_tests_cant": "it is an identity/inequality over all real inputs, array sizes and parameters; sampling cannot establish it", "anchors": ["aeolis/shear.py:WindShear.set_computational_grid", "aeolis/shear.py:WindShear.get_exact_grid", "aeolis/shear.py:WindShear.maxDiff"]}
{"id": "C109", "title": "Resampling between rotated grids", "statement": "Interpolation from a rectangular grid of any orientation to any point is bilinear in the cell of the point, exact at nodes and for planes, between the smallest and the largest value, constant beyond the edges up to the padding and the fill value beyond that.", "quantifier": "all rectangular grids, orientations, fields, fill values and target points", "why_tests_cant": "it is an identity/inequality over all real inputs, array sizes and parameters; sampling cannot establish it", "anchors": ["aeolis/shear.py:WindShear.interpolate"]}
{"id": "C110", "title": "Stress perturbation by the bed", "statement": "The relative perturbation of the wind stress is linear in the bed level, moves with the bed over the periodic computational grid, is uniform across (along) the wind for a bed that is, is zero for a bed at datum level and in a calm, and no wave number is zero. Over a wavy bed it is a wave of the same length whose height and phase are those of linear theory, tapered, for the places of the wave and of its mirror image in the spectrum. (It depends on the datum: raising the bed by h adds a constant, because the wave numbers are one place off.)", "quantifier": "all beds, grid sizes, roughness fields, length scales and any Bessel function", "why_tests_cant": "the input space is infinite; a test fixes finitely many values and cannot exclude a failing one", "anchors": ["aeolis/shear.py:WindShear.compute_shear"]}
{"id": "C111", "title": "Stress on the output grid", "statement": "Stress handed to the shear module points along the wind for every wind direction and grid orientation (zero alfa); the stress returned points nowhere against the wind, equals the undisturbed stress over a bed at datum level, scales with the undisturbed stress, is unchanged where the separation surface lies on the bed and zero where it is 0.1 m or more above. (With alfa the stress makes that angle with the computational grid.)", "quantifier": "all beds, grids, wind directions, stresses and separation settings", "why_tests_cant": "it is an identity/inequality over all real inputs, array sizes and parameters; sampling cannot establish it", "anchors": ["aeolis/shear.py:WindShear.__call__", "aeolis/shear.py:WindShear.add_shear", "aeolis/shear.py:WindShear.separation_shear", "aeolis/wind.py:shear", "aeolis/model.py:AeoLiS.grid_rotate"]}
{"id": "C112", "title": "Separation surface", "statement": "The separation surface is the upper envelope of bed, datum and separating streamlines; bubbles begin where the bed descends by more than the given angle and did not in the two columns upwind; streamlines leave the brink with its slope and reattach horizontally; behind a flat brink they descend nowhere steeper than the given slope; the bubble height is nowhere negative. (Without any stall a bed below datum counts as filled up to datum. Filtering fails with an index error if a bubble begins in a row beyond the number of columns; else, with a bubble in every row, it damps the bubble by a factor of the number of the row instead of the wave number, the first row not at all.)", "quantifier": "all beds, grid sizes, slopes, angles and numbers of filter iterations", "why_tests_cant": "the input space is infinite; a test fixes finitely many values and cannot exclude a failing one", "anchors": ["aeolis/shear.py:WindShear.separation", "aeolis/shear.py:WindShear.get_separation"]}
{"id": "C113", "title": "Separation surface over a transect", "statement": "Over a transect the separation surface is nowhere below the bed, equals the bed where no slope is steeper than the given angle, differs from it at most 200 m downwind of points where a bubble begins, and mirrors with bed and wind. A single bubble is bounded by the cubic that leaves the brink horizontally and reaches datum level. Of two bubbles the second covers the first where they overlap, and leaves its brink with the damped slope of the first. (Exactly alongshore winds ignore the cell size.)", "quantifier": "all beds, transect lengths, cell sizes, angles, slopes and wind directions", "why_tests_cant": "the input space is infinite; a test fixes finitely many values and cannot exclude a failing one", "anchors": ["aeolis/wind.py:separation1d"]}
{"id": "C114", "title": "Tapering of short waves", "statement": "The filter on the spectrum multiplies every wave by a factor between zero and one that grows with the wave length; along the wind waves of n2 cells keep 99 percent and those of n2 - n1 cells 50 percent. (Across the wind another width is used: with the range of the model waves of two cells keep less than 95 percent.)", "quantifier": "all wave numbers, cell sizes and ranges", "why_tests_cant": "it is an identity/inequality over all real inputs, array sizes and parameters; sampling cannot establish it", "anchors": ["aeolis/shear.py:WindShear.filter_highfrequenies"]}
{"id": "C115", "title": "Fences on two-dimensional grids", "statement": "The factor by which fences multiply the shear velocity lies between zero and one, and is one in a cell unless its row of the wind-aligned grid holds a fence in front of it within twenty fence heights, where it is that of Okin's model; no shear velocity that comes out exceeds the largest component across the shore that goes in; the result is proportional to that component. (The direction is lost: the result is at right angles to the wind at every node, so that without any fence a uniform onshore wind becomes a wind along the shore of the same strength; the component along the shore that goes in has no influence; distances are shortened by the sine of the wind direction.)", "quantifier": "all grids, fence heights, shear velocities, wind directions and parameters", "why_tests_cant": "it is an identity/inequality over all real inputs, array sizes and parameters; sampling cannot establish it", "anchors": ["aeolis/fences.py:fence_shear2d", "aeolis/fences.py:calc_fence_shear", "aeolis/fences.py:compute_fenceshear", "aeolis/fences.py:populate_computational_grid"]}
{"id": "C116", "title": "Sand balance of bed and air together", "statement": "In a time step the mass of the sand in bed and air together changes by what enters and leaves through the ends of the rows, what is lost where the wind changes direction and, on a transect, what leaves it sideways, less every net deposition that exceeds the mass of the top layer (which is not added to the bed level), to within the tolerance of the solver (per unit area and fraction); the error is never negative, does not depend on convergence, and in a run of any length the errors only add up. With onshore wind and no sand at the seaward end the total never grows by more than that. Avalanching after every step does not change this: on cells of equal size it never adds sand.", "quantifier": "all grids, numbers of fractions, layers and time steps, winds, initial beds; Euler backward, circular lateral boundaries", "why_tests_cant": "it is an identity/inequality over all real inputs, array sizes and parameters; sampling cannot establish it", "anchors": ["aeolis/model.py:AeoLiS.update", "aeolis/model.py:AeoLiS.solve", "aeolis/bed.py:update"]}
{"id": "C117", "title": "Output of one run as input of another", "statement": "netcdf.dump writes the last record of a variable by default, record i for index i or i-n, and fails for unknown variables and other indices. The bed composition dumped from a run and given as bedcomp_file to a run of the same sizes is restored: every mass in its own cell, layer and fraction. Given to a run with other sizes it is rejected exactly if the total number differs; with the same total it is accepted and laid out in reading order, so that exchanged layers and fractions are not detected. A bed level dumped and given as bed_file is restored on every grid that a coordinate file can define. (The values are those in the output file, which are of single precision.)", "quantifier": "all numbers of rows, columns, layers, fractions and records, all values", "why_tests_cant": "it quantifies over every string; tests sample a few literals", "anchors": ["aeolis/netcdf.py: dump", "aeolis/bed.py: initialize", "aeolis/inout.py: parse_value", "aeolis/model.py: AeoLiS.initialize"]}
{"id": "C118", "title": "Input files on the grid", "statement": "The file with x-coordinates determines the grid: several lines and columns are its rows and columns, a single line or column is a transect, a single number is rejected. A file with bed levels is accepted exactly if it has the size of the grid, or one line with a number per column, or one number, or one column with as many numbers as the grid has columns; the value of each cell is stated. A single column is laid along the rows, so on a square grid a file with a level per row is accepted and transposed. Masks are accepted for any arrangement with the right number of values. Threshold files always fail for transects. Time series need at least two records.", "quantifier": "all files with lines of equal length, all grid sizes, all values", "why_tests_cant": "it quantifies over every string; tests sample a few literals", "anchors": ["aeolis/inout.py: parse_value", "aeolis/inout.py: check_configuration", "aeolis/model.py: AeoLiS.initialize", "aeolis/bed.py: initialize", "aeolis/gridparams.py: initialize"]}
{"id": "C119", "title": "Units in the output file", "statement": "The attribute units of an output variable is the text in brackets at the start of the comment behind its name in constants.py (1 for -), of the last line that names it; a comment that starts with anything else gives no units. The units of all variables of the model state follow, and the variables without units are exactly those for soil moisture and groundwater, six vegetation and fence variables without brackets, and u0.", "quantifier": "all texts of lines and files; all variables of the model", "why_tests_cant": "it quantifies over every string; tests sample a few literals", "anchors": ["aeolis/netcdf.py: parse_metadata", "aeolis/netcdf.py: initialize", "aeolis/constants.py: MODEL_STATE"]}
{"id": "C120", "title": "Parameters set before a run", "statement": "After any calls of set_params and set_configfile a parameter of the runner has the value given last. A run starts from the configuration file chosen last: if parameters were set after that choice, the file is first backed up and replaced by all parameters of the runner; otherwise nothing is written and only the parameters in the file count, so that parameters set before choosing a file (even the same file) are lost. Starting again without further calls writes nothing more. A runner created without a file, for the default configuration, always fails.", "quantifier": "all sequences of calls, parameters, files on disk and formats", "why_tests_cant": "it quantifies over every history of calls; tests execute a few finite histories", "anchors": ["aeolis/model.py: AeoLiSRunner.__init__", "aeolis/model.py: AeoLiSRunner.set_params", "aeolis/model.py: AeoLiSRunner.set_configfile", "aeolis/model.py: AeoLiSRunner.write_params", "aeolis/model.py: AeoLiSRunner.run"]}
{"id": "C121", "title": "Counters", "statement": "The value of a counter (get_count) is the sum of its increments, whatever other counters are increased in between, and zero for a name never counted.", "quantifier": "all sequences of increments of any counters", "why_tests_cant": "it quantifies over every history of calls; tests execute a few finite histories", "anchors": ["aeolis/model.py: AeoLiS.get_count", "aeolis/model.py: AeoLiS._count"]}
{"id": "C122", "title": "What never changes in a run", "statement": "Starting from layers of equal mass, after any number of time steps with any waves, wind, transport capacity, deposition and change of bed levels every layer of every cell still holds the same mass, no fraction has a negative mass and no concentration is negative, provided that the solver converged in every step and the deposition in no cell equalled the mass of a layer exactly. The state at the start of a run is of this kind. The condition on the linear systems holds for onshore wind. (Without convergence, which gives a warning only, masses can become negative.)", "quantifier": "all numbers of time steps, cells, layers and fractions, all forcings, all linear solvers, all changes of the bed levels", "why_tests_cant": "it quantifies over every history of calls; tests execute a few finite histories", "anchors": ["aeolis/model.py: AeoLiS.update", "aeolis/model.py: AeoLiS.solve", "aeolis/bed.py: initialize", "aeolis/bed.py: mixtoplayer", "aeolis/bed.py: update"]}
{"id": "C123", "title": "Water levels in a time step with groundwater", "statement": "Without groundwater the water levels and waves used in a time step are those at its start. With groundwater they are those at the last groundwater step, so of a time between one and two groundwater steps before the end of the time step: switching on the groundwater shifts the tide and the waves seen by the beach by almost a time step; in either case they are the conditions of one time. With groundwater the step succeeds exactly if the groundwater step is at least one second, the landward boundary is known and at every groundwater step the first two cells of the transect are not above the set-up level and some other cell is; otherwise an error is raised, for example for a transect that is entirely dry or entirely under water. After a step the groundwater is at the set-up level where the bed is below that and at most at the bed elsewhere.", "quantifier": "all tide and wave series, masks, transects, time steps, groundwater settings and states", "why_tests_cant": "the input space is infinite; a test fixes finitely many values and cannot exclude a failing one", "anchors": ["aeolis/hydro.py: interpolate", "aeolis/hydro.py: update", "aeolis/hydro.py: Boussinesq", "aeolis/model.py: AeoLiS.update"]}
{"id": "C124", "title": "Cells marked as wetting", "statement": "In the first step no cell is marked as wetting. In a later step a cell is marked as wetting exactly if its groundwater rose in the previous time step, except at the shoreline of that step, in the last three cells and in a seepage face. At the shoreline the level is compared with the set-up level at the start of the previous step, not with the groundwater level that was there.", "quantifier": "all water levels, transects, time steps, groundwater settings and states", "why_tests_cant": "it quantifies over every history of calls; tests execute a few finite histories", "anchors": ["aeolis/hydro.py: update", "aeolis/hydro.py: Boussinesq"]}
{"id": "C125", "title": "From wind to bed: a step keeps the state sound", "statement": "With onshore wind, or on a transect with wind from any direction that nowhere blows apart, an implicit upwind scheme and a sensible configuration, thresholds, transport capacities, linear systems, solver and bed update together keep layers of equal mass and no mass, concentration, capacity or weight negative, in runs of any length, whatever the strength of the wind, the waves, the moisture, the mask, the salt and the changes of bed levels, provided that the iteration of the solver converged and no deposition equals the mass of a layer exactly. With known names of methods such a run always returns: no exception, no infinite or undefined capacity, no singular system. On a transect with grains that move with the wind, onshore wind is all that is asked of the velocities, or a uniform wind of any direction.", "quantifier": "all grids, layers, fractions, numbers of time steps, winds, moisture, masks, water levels and states, every linear solver that solves regular systems", "why_tests_cant": "it quantifies over every history of calls; tests execute a few finite histories", "anchors": ["aeolis/model.py: AeoLiS.update", "aeolis/model.py: AeoLiS.solve", "aeolis/threshold.py: compute", "aeolis/transport.py: equilibrium", "aeolis/transport.py: compute_weights", "aeolis/bed.py: update"]}
{"id": "C126", "title": "Where a step does not erode", "statement": "Whatever the wind, the exchange with the air does not lower the bed of a cell that holds more than 6.4 % water, is flooded (without moisture thresholds), has a non-erodible layer at most a centimetre below its surface, or has no shear velocity; also if the iteration of the solver does not converge.", "quantifier": "all grids, onshore winds (any direction on transects), moisture contents, water levels, non-erodible layers, states, every linear solver that solves regular systems", "why_tests_cant": "the input space is infinite; a test fixes finitely many values and cannot exclude a failing one", "anchors": ["aeolis/model.py: AeoLiS.solve", "aeolis/threshold.py: compute_moisture", "aeolis/threshold.py: non_erodible", "aeolis/transport.py: equilibrium", "aeolis/bed.py: update"]}
{"id": "C127", "title": "Wind below the threshold moves nothing", "statement": "If the shear velocity nowhere exceeds the threshold of the grain sizes (0.8 of it with dk), the air is clear and no sand enters at the ends, a run of any length leaves the masses in the layers, the bed levels and the air as they are, whatever the moisture, the salt, masks of at least one, the non-erodible layer and the tides. With thresholds from a file this fails: sand appears in the air wherever the wind blows, although no bed is lowered.", "quantifier": "all grids, onshore winds, numbers of time steps, states with clear air, every linear solver that solves regular systems", "why_tests_cant": "it quantifies over every history of calls; tests execute a few finite histories", "anchors": ["aeolis/model.py: AeoLiS.update", "aeolis/model.py: AeoLiS.solve", "aeolis/threshold.py: compute", "aeolis/bed.py: initialize", "aeolis/bed.py: update"]}
{"id": "C128", "title": "Concentrations do not exceed the transport capacity", "statement": "With wind (onshore, or from any direction on a transect) whose onshore component does not decrease towards the land, an implicit scheme and circular lateral boundaries, concentrations that never exceeded a value still do not exceed it after any number of steps whose capacities and inflow do not exceed it. Where the grains slow down they may exceed it. The iteration of the solver converges if in every cell the deficits of the fractions, i.e. what the wind can pick up of each in a step beyond what the bed holds, do not add up to more than the largest error times the number of iterations; otherwise it may end at its limit, with a warning and sand picked up that was not there. With layers that hold more than the wind can pick up of all fractions, and iterations enough for that, the state therefore stays sound in every run, with any number of fractions; with one fraction any number of iterations is enough.", "quantifier": "all grids, numbers of steps, time steps, cell sizes, capacities, every linear solver that solves regular systems", "why_tests_cant": "it quantifies over every history of calls; tests execute a few finite histories", "anchors": ["aeolis/model.py: AeoLiS.solve", "aeolis/model.py: AeoLiS.update"]}
{"id": "C129", "title": "Grain speeds after Duran", "statement": "With the grain speed method `duran` the speed is the magnitude of the velocity. Time and length scale of saltation, friction and settling velocity are those of the documented formulas. In separation bubbles grains move with 0.1 m/s with the wind. Elsewhere, on any slope, the velocity of the grains differs from the wind that drives them by a vector of fixed length, the settling velocity over the square root of 2 alpha, so that the speed lies between their difference and their sum; on a flat bed it is along the wind. The driving wind is that of a logarithmic profile at the threshold and grows linearly with the shear velocity. Below the threshold, grains on a flat bed move against the wind, with the speed of the drag. There is no finite velocity exactly in cells without wind and shear and, outside of separation bubbles, where the threshold for the grain size is zero or the slope cancels the wind. The slopes of a plane are those of the plane, except at the ends of a transect, where they are zero.", "quantifier": "all grain sizes, densities, winds, slopes, thresholds, separation surfaces and grid sizes", "why_tests_cant": "it is an identity/inequality over all real inputs, array sizes and parameters; sampling cannot establish it", "anchors": ["aeolis/transport.py: duran_grainspeed"]}
{"id": "C130", "title": "Water levels and waves from another model", "statement": "If water levels come from another model (`external_vars`) and tides are on, the still water level of every cell is the delivered level, after the tide mask, of a nearest wet cell; wet cells keep their own; there is no result exactly if no cell is wet. Dry cells lower than the level in all wet cells count as flooded, whatever lies between. Without tides the delivered level is overwritten by datum or bed. If wave heights are delivered, runup is that of each cell and the set-up level is the still water level. Masks act on delivered waves once per call, i.e. as many times as levels were interpolated since delivery. Without delivered variables every row is treated on its own.", "quantifier": "all grids, masks, beds, delivered levels and waves, numbers of calls, every way to choose among nearest cells", "why_tests_cant": "it quantifies over every history of calls; tests execute a few finite histories", "anchors": ["aeolis/hydro.py: interpolate", "aeolis/utils.py: apply_mask", "aeolis/constants.py: DEFAULT_CONFIG"]}
{"id": "C131", "title": "Balance of sand from the wind to the bed", "statement": "Over a run of the whole chain (thresholds, grain speeds, capacities, transport, bed) with onshore wind or, on a transect, wind from any direction, the sand in the bed and in the air between the ends of the grid changes by what enters through the ends less what leaves (and what is lost where winds meet or, on a transect, leaves sideways): never by more than that plus the tolerance of the solver per step, fraction and area; and never by less, if the levels change through the exchange with the air only and no cell receives as much as its top layer holds. Without supply at the ends it does not grow. Over a thick bed with iterations enough as in C128 (any number of them with one fraction) this needs no assumption on the results of the solver.", "quantifier": "all grids, numbers of fractions, layers and time steps, winds, moisture, salt, water levels, thresholds and capacities that the configuration allows, initial beds; Euler backward, circular lateral boundaries, no alongshore variation", "why_tests_cant": "it quantifies over every history of calls; tests execute a few finite histories", "anchors": ["aeolis/model.py: AeoLiS.update", "aeolis/model.py: AeoLiS.solve", "aeolis/bed.py: update", "aeolis/transport.py: equilibrium", "aeolis/transport.py: grainspeed", "aeolis/threshold.py: compute"]}
{"id": "C132", "title": "What a time step computes from what", "statement": "In a time step of the whole chain the order of the processes is fixed and so is the time level of every quantity: thresholds follow from the mixed top layer, the bed level before and the water level, moisture and salt of this step; grain speeds from the wind of this step; capacities from the new thresholds; the concentrations of a transect satisfy, in every inner cell, change in the air = exchange with the bed less the upwind difference of the transport less what leaves sideways, with the new speeds and capacities, weights of this step and, in the explicit part, capacities, weights and concentrations of the step before, and take the prescribed values at the ends; the bed then exchanges the demand of every fraction, limited by the mixed top layer; later changes of the levels come last. Without wind only mixing, water level and levels change. With plenty of sand the weights are those at the start of the step, sum to one, and every fraction exchanges exactly its demand.", "quantifier": "all grids (the equation: all transects), numbers of fractions and layers, wind directions, implicitness parameters, thresholds and capacities that the configuration allows, states; systems that can be solved, which those of transects with prescribed values at the ends always can", "why_tests_cant": "it quantifies over every history of calls; tests execute a few finite histories", "anchors": ["aeolis/model.py: AeoLiS.update", "aeolis/model.py: AeoLiS.solve", "aeolis/bed.py: update", "aeolis/bed.py: mixtoplayer", "aeolis/transport.py: equilibrium", "aeolis/transport.py: grainspeed", "aeolis/transport.py: compute_weights", "aeolis/threshold.py: compute"]}
{"id": "C133", "title": "A complete time step on a transect, from the input files to the bed", "statement": "On a transect with the implicit scheme, grains that move with the wind and a prescribed concentration at the landward end, every executed call of `update(dt)` applies the chain thresholds - capacity - solver - bed with the wind of the wind file at the current time, the time step that was asked for (the configured one if none was) and the shear velocity of the logarithmic wind profile, changed in turn by the topography with flow separation (when there is wind), by the fences with their new heights and by the vegetation as it was before the call, water levels from the tide and wave files and moisture with the weather of the meteorological file at the time of the last groundwater step (the current time without groundwater), under the assumptions of C125-C131, whatever the files contain, the wind direction, fences, vegetation, topography and state; a call with dt < -1 only moves the clock; and with nonempty files with increasing times a call returns without an exception exactly if the groundwater does (C123), and without groundwater a run with any calls returns.", "quantifier": "All numbers of cells and fractions, configurations with the stated choices, input files, states, sequences of calls and random numbers.", "why_tests_cant": "it quantifies over every history of calls; tests execute a few finite histories", "anchors": ["aeolis/model.py:AeoLiS.update", "aeolis/wind.py:interpolate", "aeolis/hydro.py:interpolate", "aeolis/hydro.py:update", "aeolis/fences.py:update_fences", "aeolis/vegetation.py:vegshear", "aeolis/erosion.py:run_ph12"]}
{"id": "C134", "title": "Runs from the input files: no transport in a breeze, bounded concentrations in a storm", "statement": "On a transect with or without fences and vegetation but without disturbance of the shear by topography: if the strongest wind in the file gives a shear velocity below the threshold of every grain size (and 0.01 m/s, the lower limit behind fences and in vegetation, is below it), a run of any length leaves layers and bed levels as they are and the air clear; with any number of fractions, Bagnold's formula, grains that do not move at 0.01 m/s, layers that hold what settles in a time step and iterations enough as in C128, a run of any length returns, keeps the masses of the layers, has no negative amounts of sand, and never has more sand of a fraction in the air than the formula gives for the strongest wind in the file without threshold. With groundwater the same holds for every run that returns.", "quantifier": "All numbers of cells, wind files with speeds up to a bound, wind directions, tides, moisture, initial states and sequences of calls.", "why_tests_cant": "it quantifies over every history of calls; tests execute a few finite histories", "anchors": ["aeolis/model.py:AeoLiS.update", "aeolis/wind.py:interpolate", "aeolis/transport.py:equilibrium", "aeolis/threshold.py:compute_grainsize", "aeolis/bed.py:update"]}
{"id": "C135", "title": "Balance of sand of runs from the input files", "statement": "On a transect with any number of fractions, Bagnold's formula, layers that hold what settles in a time step, iterations enough as in C128, with or without fences and vegetation but with a shear that the topography does not change, with wind from any direction and the implicit scheme: a call of update changes the sand in bed and air together by what enters through the ends less what leaves through them, is lost where the wind changes direction or leaves the transect sideways, up to the tolerance of the solver per area; if no sand is supplied at the ends, a run of any length with any calls of update returns without having created sand, also with avalanches, up to that tolerance per call. With groundwater the same holds for every run that returns.", "quantifier": "All numbers of cells, wind files with speeds up to a bound, wind directions, tides, moisture, initial states and sequences of calls.", "why_tests_cant": "it quantifies over every history of calls; tests execute a few finite histories", "anchors": ["aeolis/model.py:AeoLiS.update", "aeolis/model.py:AeoLiS.euler_backward", "aeolis/bed.py:update", "aeolis/avalanching.py:avalanche"]}
{"id": "C136", "title": "Runs from the input files do not erode what is under water", "statement": "While the tide in the input file covers a cell by more than the given tolerance, an executed call of update does not lower the bed of the cell, whatever wind, direction, shear, fences and vegetation, either because flooded cells get an infinite threshold (tide on, moisture threshold off) or because the moisture of flooded cells exceeds what wind can dry (moisture threshold and runup on, porosity or saturated content large enough); the same holds at any time for cells at most a centimetre above the non-erodible layer. No avalanches, bed resets and dune erosion. With groundwater the tide has to cover the cell during the whole time step.", "quantifier": "All numbers of cells, fractions and layers, tide and wind files, masks, states with nonnegative masses, time steps and cells.", "why_tests_cant": "it quantifies over every history of calls; tests execute a few finite histories", "anchors": ["aeolis/model.py:AeoLiS.update", "aeolis/hydro.py:interpolate", "aeolis/hydro.py:update", "aeolis/threshold.py:compute_moisture", "aeolis/threshold.py:non_erodible", "aeolis/bed.py:update"]}
{"id": "C137", "title": "Ranges of water, moisture, salt and vegetation and the clock in runs from the input files", "statement": "In runs of any length on a transect: the moisture content stays between zero and the porosity (infiltration) or between the residual and the saturated content (soil moisture), the salt content between zero and one if the file has no negative rain (with salt but without soil moisture and a meteorological file every call raises an exception), plant heights between zero and the maximum with the density the square of the relative height (height-based growth) or the density between zero and its maximum (density-based growth); after every executed call the water is nowhere below the bed the call started with and waves are no higher than the given fraction of the depth; with groundwater (in steps of at least a second) it is at the set-up level where the bed was below that and at most at the bed elsewhere; the time is the initial time plus, for every executed call, the step asked for times the acceleration factor.", "quantifier": "All numbers of cells, input files, random numbers, sequences of calls of update with any time steps, and initial states within the ranges.", "why_tests_cant": "it quantifies over every history of calls; tests execute a few finite histories", "anchors": ["aeolis/model.py:AeoLiS.update", "aeolis/hydro.py:interpolate", "aeolis/hydro.py:update", "aeolis/vegetation.py:grow", "aeolis/model.py:AeoLiS.set_timestep"]}
{"id": "C138", "title": "No slope above the angle of repose after a call", "statement": "On a transect with avalanching, after every executed call of update with wind (without reset of the wet bed) or with dune erosion, no cell between the ends is higher above one of its neighbours than the static angle of repose (or the dynamic one if that is larger) allows, unless the configured number of rounds of redistribution ran out; whatever wind, waves, dune erosion and vegetation did to the bed.", "quantifier": "All numbers of cells, fractions and layers, input files, states, time steps and angles.", "why_tests_cant": "the input space is infinite; a test fixes finitely many values and cannot exclude a failing one", "anchors": ["aeolis/model.py:AeoLiS.update", "aeolis/avalanching.py:avalanche", "aeolis/avalanching.py:calc_gradients", "aeolis/erosion.py:run_ph12"]}
{"id": "C139", "title": "Avalanching needs a file with the non-erodible layer", "statement": "Without `ne_file` (the default) the level of the non-erodible layer is not a number and avalanching leaves every bed as it is, however steep: runs on transects of any length have the same result with and without `process_avalanche`. With a layer below the bed every summit steeper than the dynamic angle of repose is lowered by a redistribution.", "quantifier": "All grids, beds, angles, numbers of rounds; all configurations, states, calls and random numbers of runs on transects.", "why_tests_cant": "it quantifies over every history of calls; tests execute a few finite histories", "anchors": ["aeolis/avalanching.py:avalanche", "aeolis/bed.py:initialize", "aeolis/model.py:AeoLiS.update"]}
{"id": "C140", "title": "A complete time step on a planar grid, from the input files to the bed", "statement": "On a grid of at least three rows with the implicit scheme and grains that move with the wind, every executed call of `update(dt)` applies the chain thresholds - capacity - solver - bed with the wind of the wind file at the current time, the time step that was asked for (the configured one if none was), the shear velocity of the logarithmic wind profile, replaced by the one computed over the topography (when there is wind), changed by the fences with their new heights and by the vegetation as it was before the call, water levels from the tide and wave files and groundwater in every row and moisture with the weather at the time of the last groundwater step (the current time without groundwater); afterwards avalanches, the reset of the wet bed and dune erosion in every row change the levels and the vegetation grows. A call with dt < -1 only moves the clock. If all wind directions in the file lie in a quarter from which the wind blows in the direction of increasing cell numbers, it blows there at every time, and with nonempty files with increasing times a call returns without an exception exactly if the groundwater does (C148), and without groundwater a run with any calls returns.", "quantifier": "All numbers of rows, columns and fractions, configurations with the stated choices, input files, states, sequences of calls and random numbers.", "why_tests_cant": "it quantifies over every history of calls; tests execute a few finite histories", "anchors": ["aeolis/model.py:AeoLiS.update", "aeolis/wind.py:interpolate", "aeolis/wind.py:shear", "aeolis/hydro.py:interpolate", "aeolis/fences.py:update_fences", "aeolis/vegetation.py:vegshear", "aeolis/erosion.py:run_ph12"]}
{"id": "C141", "title": "Runs on planar grids from the input files: nothing moves in a breeze, bounded concentrations in a storm", "statement": "On a planar grid with or without vegetation but without fences and disturbance of the shear by topography, with wind directions as in C140: if the strongest wind in the file gives a shear velocity below the threshold of every grain size, a run of any length leaves layers and bed levels as they are and the air clear; with any number of fractions, Bagnold's formula, circular lateral boundaries, layers that hold what settles in a time step and iterations enough as in C128, a run of any length returns, keeps the masses of the layers, has no negative amounts of sand, and never has more sand of a fraction in the air than the formula gives for the strongest wind in the file without threshold. With groundwater the same holds for every run that returns.", "quantifier": "All grids of at least three rows, wind files with speeds up to a bound and directions in the quarter, tides, moisture, vegetation, initial states and sequences of calls.", "why_tests_cant": "it quantifies over every history of calls; tests execute a few finite histories", "anchors": ["aeolis/model.py:AeoLiS.update", "aeolis/wind.py:interpolate", "aeolis/vegetation.py:vegshear", "aeolis/transport.py:equilibrium", "aeolis/threshold.py:compute_grainsize", "aeolis/bed.py:update"]}
{"id": "C142", "title": "Balance of sand of runs on planar grids from the input files", "statement": "On a planar grid of equal rows with circular lateral boundaries, under the assumptions of C141: a call of update changes the sand in bed and air together by what the wind carries in through the first column less what it carries out behind the last but one, up to the tolerance of the solver per area, whatever the wind carries from row to row; if no sand is supplied at the ends, a run of any length with any calls of update returns without having created sand, also with avalanches, up to that tolerance per call. With groundwater the same holds for every run that returns.", "quantifier": "All grids of at least three equal rows, wind files with speeds up to a bound and directions in the quarter, tides, moisture, vegetation, initial states and sequences of calls.", "why_tests_cant": "it quantifies over every history of calls; tests execute a few finite histories", "anchors": ["aeolis/model.py:AeoLiS.update", "aeolis/model.py:AeoLiS.euler_backward", "aeolis/bed.py:update", "aeolis/avalanching.py:avalanche"]}
{"id": "C143", "title": "Runs on planar grids from the input files do not erode what is under water", "statement": "On a planar grid with wind directions as in C140: while the tide in the input file covers a cell by more than the given tolerance, an executed call of update does not lower the bed of the cell, whatever wind, shear over the topography, fences and vegetation, because flooded cells get an infinite threshold or because their moisture exceeds what wind can dry; the same holds at any time for cells at most a centimetre above the non-erodible layer. No avalanches, bed resets and dune erosion. With groundwater the tide has to cover the cell during the whole time step.", "quantifier": "All grids of at least three rows, numbers of fractions and layers, tide and wind files, masks, states with nonnegative masses, time steps and cells.", "why_tests_cant": "it quantifies over every history of calls; tests execute a few finite histories", "anchors": ["aeolis/model.py:AeoLiS.update", "aeolis/hydro.py:interpolate", "aeolis/hydro.py:update", "aeolis/threshold.py:compute_moisture", "aeolis/threshold.py:non_erodible", "aeolis/bed.py:update"]}
{"id": "C144", "title": "Ranges of water, moisture, salt and vegetation and the clock in runs on planar grids", "statement": "In runs of any length on a planar grid: the moisture content stays between zero and the porosity (infiltration) or between the residual and the saturated content (soil moisture), the salt content between zero and one if the file has no negative rain (with salt but without soil moisture and a meteorological file every call raises an exception), plant heights between zero and the maximum with the density the square of the relative height, or the density between zero and its maximum; after every executed call the water is nowhere below the bed the call started with and waves are no higher than the given fraction of the depth; with groundwater (in steps of at least a second) it is at the set-up level where the bed was below that and at most at the bed elsewhere; the time is the initial time plus, for every executed call, the step asked for times the acceleration factor.", "quantifier": "All grids of at least three rows, input files, random numbers, sequences of calls of update with any time steps, and initial states within the ranges.", "why_tests_cant": "it quantifies over every history of calls; tests execute a few finite histories", "anchors": ["aeolis/model.py:AeoLiS.update", "aeolis/hydro.py:interpolate", "aeolis/hydro.py:update", "aeolis/vegetation.py:grow", "aeolis/model.py:AeoLiS.set_timestep"]}
{"id": "C145", "title": "No slope above the angle of repose after a call on a planar grid", "statement": "On a planar grid with avalanching, after every executed call of update with wind (without reset of the wet bed) or with dune erosion, the drops from a cell inside the grid towards a neighbour in its row and a neighbour in its column combine to at most the static angle of repose (or the dynamic one if that is larger), unless the configured number of rounds of redistribution ran out; whatever wind, waves, dune erosion and vegetation did to the bed.", "quantifier": "All grids of at least three rows, numbers of fractions and layers, input files, states, time steps and angles.", "why_tests_cant": "the input space is infinite; a test fixes finitely many values and cannot exclude a failing one", "anchors": ["aeolis/model.py:AeoLiS.update", "aeolis/avalanching.py:avalanche", "aeolis/avalanching.py:calc_gradients", "aeolis/erosion.py:run_ph12"]}
{"id": "C146", "title": "Complete runs of the program on a transect", "statement": "With increasing coordinates, layers of equal thickness, grain size distributions that are not zero and complete input files, a run of the program on a transect completes: initialisation stores the levels of the bed file, layers of the same mass per area composed as configured, clear air, dry sand and the clock at the start time; the number of time steps is the one that first passes the stop time; the output is written at the times of the output rule; the final state is that after as many calls of update. In a breeze below the threshold of every grain size the final bed is that of the bed file. In a storm, with any number of fractions and iterations enough as in C128, every layer keeps its mass, the sand of each fraction in the air is nowhere negative nor more than Bagnold's formula gives for the strongest wind of the file, and without supply at the ends the sand in bed and air is at most that of the bed file up to the tolerance of the solver. A run that starts after zero but before the first output time ends with an exception. Every run that returns, with groundwater or without, restarted or not, has taken that number of steps, has the state after as many calls of update, the records of the output rule and those bounds on bed and air; its moisture is between zero and the porosity or between residual and saturated content, its salt content between zero and one, its vegetation within the maximum height and its density between zero and one, and the water of its last step is not below the bed nor its groundwater above the bed where the water is lower. With groundwater on a beach whose first two cells are always below and whose crest is always above the set-up level a run in a breeze completes; on any other bed it ends with an exception in the first time step.", "quantifier": "All transects, numbers of fractions and layers, bed, wind, tide, wave, vegetation and fence files, start, stop and output times.", "why_tests_cant": "the input space is infinite; a test fixes finitely many values and cannot exclude a failing one", "anchors": ["aeolis/model.py:AeoLiSRunner.run", "aeolis/model.py:AeoLiS.initialize", "aeolis/model.py:AeoLiS.update", "aeolis/bed.py:initialize", "aeolis/gridparams.py:initialize", "aeolis/wind.py:initialize", "aeolis/vegetation.py:initialize", "aeolis/fences.py:initialize"]}
{"id": "C147", "title": "Complete runs of the program on a planar grid", "statement": "On a planar grid of at least three by three cells, in any orientation, with wind from a sector ahead of the turned grid and complete input files, a run of the program completes: initialisation takes the cell sizes from the distances of the first cell to its neighbours, turns the grid by the angle of its first row, brings the wind directions to the nautical convention, and stores the levels of the bed file, layers of the same mass per area composed as configured, clear air, dry sand, the vegetation and fences of their files and the clock at the start time; the number of time steps is the one that first passes the stop time; the output is written at the times of the output rule; the final state is that after as many calls of update. In a breeze below the threshold of every grain size the final bed is that of the bed file. In a storm, with any number of fractions and iterations enough as in C128, every layer keeps its mass, the sand of each fraction in the air is nowhere negative nor more than Bagnold's formula gives for the strongest wind of the file, and without supply at the ends the sand in bed and air is at most that of the bed file up to the tolerance of the solver. Every run that returns, with groundwater or without, restarted or not, has taken that number of steps, has the state after as many calls of update, the records of the output rule and those bounds on bed and air; its moisture, salt, vegetation, water and groundwater are within the ranges of C146. With groundwater on a beach whose rows all begin below and end above the set-up level a run in a breeze completes; with a row that does not it ends with an exception in the first time step.", "quantifier": "All planar grids, orientations, numbers of fractions and layers, bed, wind, tide, wave, vegetation and fence files, start, stop and output times.", "why_tests_cant": "the input space is infinite; a test fixes finitely many values and cannot exclude a failing one", "anchors": ["aeolis/model.py:AeoLiSRunner.run", "aeolis/model.py:AeoLiS.initialize", "aeolis/model.py:AeoLiS.update", "aeolis/bed.py:initialize", "aeolis/gridparams.py:initialize", "aeolis/wind.py:initialize", "aeolis/vegetation.py:initialize", "aeolis/fences.py:initialize"]}
{"id": "C148", "title": "Groundwater on grids of several rows", "statement": "On a grid with several rows a time step with groundwater in steps of at least a second uses in all rows the water levels of one time, that of the last groundwater step, and leaves the groundwater at the set-up level where the bed is below that and at most at the bed elsewhere. It succeeds exactly if the groundwater step is at least one second, the landward boundary is known and at every groundwater step in every row the first two cells are not above the set-up level and some other cell is. If at every time the shoreline is in the same column in all rows, the rows develop as transects of their own; otherwise they do not: even in soil that lets no water pass the groundwater of a row is set to the level of the sea in the column where the shoreline of the row before it is (of the last row for the first), on dry land as well.", "quantifier": "all numbers of rows and columns, tide and wave series, masks, beds, time steps, groundwater settings and states", "why_tests_cant": "the input space is infinite; a test fixes finitely many values and cannot exclude a failing one", "anchors": ["aeolis/hydro.py: update", "aeolis/hydro.py: Boussinesq", "aeolis/hydro.py: interpolate"]}
{"id": "C149", "title": "What a time step with groundwater computes", "statement": "In a time step with groundwater the level goes through as many steps of whole seconds as fit, starting from the configured level at the start of the run and from the stored one later. Each step takes the water levels and waves of its own time and the shorelines from these, integrates the Boussinesq equation with the classical Runge-Kutta method (every stage with the set-up level at the shoreline and in the column of the shoreline of the row before, the landward condition in the last three cells and the bed level on the seepage face), adds the infiltrated part of the runup, applies the mask and then the limits. The level stored for comparison is the one at the start of the time step with the values at the ends and on the seepage face; a cell counts as wetting exactly if, after the first time step, the level at the start is above the one stored by the step before.", "quantifier": "all numbers of rows and columns from four columns on, tide and wave series, masks, beds, time steps, groundwater settings and states", "why_tests_cant": "the input space is infinite; a test fixes finitely many values and cannot exclude a failing one", "anchors": ["aeolis/hydro.py: update", "aeolis/hydro.py: Boussinesq", "aeolis/hydro.py: runup_overheight_distr"]}
{"id": "C150", "title": "More supply or capacity never means less sand in the air", "statement": "One time step of the transport solver with the implicit scheme is monotone: with nowhere less weighted transport capacity, nowhere less sand in the air before the step and no less sand coming in at the ends, the concentrations after the step are nowhere lower. Holds for onshore transport on grids of several rows and for transport in any direction that nowhere diverges on a transect; the only exception is a last column that is extrapolated (boundary_onshore = gradient). The steady-state solver is monotone likewise.", "quantifier": "all grids, cell sizes, time steps, adaptation times, speeds, capacities and pairs of inputs", "why_tests_cant": "the input space is infinite; a test fixes finitely many values and cannot exclude a failing one", "anchors": ["aeolis/model.py: AeoLiS.solve"]}
{"id": "C151", "title": "Nothing travels upwind", "statement": "With onshore transport and a given concentration at the offshore end, the concentrations in the first columns after a time step do not depend on speeds, capacities and previous concentrations in the columns landward of them: a dune, fence or wet zone downwind changes nothing upwind.", "quantifier": "all grids, numbers of columns, time steps, implicitness, and pairs of inputs that agree in the first columns", "why_tests_cant": "the input space is infinite; a test fixes finitely many values and cannot exclude a failing one", "anchors": ["aeolis/model.py: AeoLiS.solve"]}
{"id": "C152", "title": "Concentrations approach the steady state for every time step", "statement": "Under constant forcing, with the implicit scheme, onshore transport and grains that do not slow down on their way, the largest difference from the steady concentrations shrinks in every time step by the factor 1/(1+dt/T) at least, however long the time step is; from every initial state the concentrations converge to those of the steady-state solver.", "quantifier": "all grids, time steps, adaptation times, initial concentrations and numbers of steps", "why_tests_cant": "it quantifies over every history of calls; tests execute a few finite histories", "anchors": ["aeolis/model.py: AeoLiS.solve", "aeolis/model.py: AeoLiS.solve_steadystate"]}
{"id": "C153", "title": "Linear response of the concentrations", "statement": "For given bed weights and speeds the concentrations after a time step depend linearly on capacities, previous concentrations and values at the ends: doubling all of them doubles the concentrations, and the response to a sum is the sum of the responses; with onshore transport and none of them there is no sand in the air.", "quantifier": "all grids, speeds, implicitness, boundary conditions, inputs and factors", "why_tests_cant": "the input space is infinite; a test fixes finitely many values and cannot exclude a failing one", "anchors": ["aeolis/model.py: AeoLiS.solve"]}
{"id": "C154", "title": "Rows with equal inputs behave like a transect", "statement": "On a planar grid with circular sides and onshore transport, inputs that are the same in all rows give concentrations that are the same in all rows, equal to those of a transect without transport along the shore, whatever the wind along the shore. A transect itself does not behave so: with oblique wind it loses what moves along the shore, its concentrations are nowhere higher, and lower wherever there is sand in the air and transport along the shore.", "quantifier": "all numbers of rows and columns, cell sizes, time steps, speeds, capacities and (for the first part) implicitness", "why_tests_cant": "the input space is infinite; a test fixes finitely many values and cannot exclude a failing one", "anchors": ["aeolis/model.py: AeoLiS.solve"]}
{"id": "C155", "title": "Limits on the time step in complete time steps", "statement": "In every executed call of update, whatever the settings, the clock moves by a time step that is not longer than asked for; that, with the explicit scheme, keeps the Courant number of the wind in the file in each cell at or below its limit; that, with a limit on the change of the bed level, keeps the rise of the bed in each cell at the pace of the step before below that limit; and that is as long as one of these demands allows. If it is positive, the call does exactly what a call asking for that time step does without limits, so a run with the limit on the bed level is a run without it and with time steps that are not longer, as long as the bed does not fall in all cells at once.", "quantifier": "all grids, configurations, states, time steps and runs; transects and planar grids", "why_tests_cant": "it quantifies over every history of calls; tests execute a few finite histories", "anchors": ["aeolis/model.py: AeoLiS.set_timestep, AeoLiS.update"]}
{"id": "C156", "title": "Roughness from the bed and grain speeds of the drag law in complete time steps", "statement": "Whatever the settings, a step that is executed takes wind speed and direction of the wind file at the time of the state; the roughness of each cell is that of the selected method for the grain sizes and the sand in the top layer of that cell; the undisturbed shear velocity is the wind speed times kappa over the logarithm of the height of the measurements over that roughness; with the method duran the velocity of the grains of every fraction in every cell is that of the drag law for the wind, the thresholds and the bed slopes of the step; and with sensible constants such a call returns for every method for the grain speeds and every roughness below the height of the measurements, with duran on a gentle bed", "quantifier": "all grids, numbers of fractions, settings, states, time steps and random numbers", "why_tests_cant": "it quantifies over every string; tests sample a few literals", "anchors": ["aeolis/wind.py: interpolate, calculate_z0", "aeolis/transport.py: duran_grainspeed, grainspeed", "aeolis/model.py: AeoLiS.update"]}
{"id": "C157", "title": "The order of the sediment fractions, and fractions of which there is nothing, do not matter", "statement": "When the fractions of a run are found back in another run under other numbers, and the other run has further fractions of which there is nothing, then the composition at the start, the update of the bed (masses of every layer, pickup, bed level, change of the bed level), any number of such updates, the mixing by waves, the weights of the fractions at the start of the transport solver, the mean grain size of the top layer and the thresholds of the fractions are the same under the new numbers, and no mass or weight of the other fractions appears, whatever their grain sizes or their capacities.", "quantifier": "all renumberings, numbers of fractions and layers, masses, pickups, settings and sequences of pickups", "why_tests_cant": "the input space is infinite; a test fixes finitely many values and cannot exclude a failing one", "anchors": ["aeolis/bed.py: initialize, update, prevent_negative_mass, arrange_layers, mixtoplayer", "aeolis/transport.py: compute_weights", "aeolis/utils.py: normalize, calc_mean_grain_size", "aeolis/threshold.py: compute"]}
{"id": "C158", "title": "Avalanching does not depend on the datum or on where the grid is numbered from", "statement": "With bed and non-erodible layer raised everywhere by the same height, the bed after avalanching is raised by that height. With the columns, or the rows, of the grid numbered from the other side, the bed after avalanching is the same, numbered from the other side. Hence a bed that looks the same from both sides stays so.", "quantifier": "all grids, cell sizes, beds, non-erodible layers (also unknown levels), angles of repose and limits on the iterations", "why_tests_cant": "the input space is infinite; a test fixes finitely many values and cannot exclude a failing one", "anchors": ["aeolis/avalanching.py: avalanche, calc_gradients"]}
{"id": "C159", "title": "Wind from the land is wind from the sea seen from the other side", "statement": "Where the wind nowhere stands still, the concentrations that solve the advection equation on a grid numbered from the sea also solve, numbered from the other side, the equation on that grid with the velocities along the rows reversed and the two boundary conditions exchanged; likewise for the rows of a grid with circular lateral boundaries and the same velocity across all rows. Hence with wind from any quarter the equation on a planar grid or a transect has exactly one solution when the sand at the upwind end is given, concentrations are nowhere negative, and more capacity or more sand never means less sand in the air.", "quantifier": "all grids, cell sizes, velocities, time steps, boundary types except a closed seaward end, and inputs; the last three statements: implicit scheme with wind of one sign along and one sign across the rows", "why_tests_cant": "the input space is infinite; a test fixes finitely many values and cannot exclude a failing one", "anchors": ["aeolis/model.py: AeoLiS.solve, AeoLiS.euler_backward"]}
{"id": "C160", "title": "The datum of the levels does not matter", "statement": "When bed, tide, non-erodible layer, minimum level of vegetation, dune toe and the other levels in the configuration are all raised by the same height, a transect, or a planar grid without shear over the topography, behaves the same, only raised: the water levels are raised, waves and runup are the same; the bed after each call of update is raised, and grain masses, transport, moisture, vegetation, shear, wind and clock are the same; errors are the same. A complete run from such files writes its output at the same times, prints the same progress and ends after the same number of steps. Avalanching, dune erosion, wave mixing, bed update and transport are included. The claim does not hold with sand fences or groundwater, which compare levels with zero; both are shown by cases.", "quantifier": "all heights (also negative), transects and planar grids, numbers of fractions, states, time steps, sequences of calls and complete runs, for configurations with tide and runup and without sand fences, groundwater, flow separation, the grain speed of Duran, and on planar grids shear over the topography", "why_tests_cant": "it quantifies over every history of calls; tests execute a few finite histories", "anchors": ["aeolis/model.py: AeoLiS.initialize, AeoLiS.update, AeoLiSRunner.run", "aeolis/hydro.py: interpolate, update, calc_runup_stockdon", "aeolis/erosion.py: run_ph12", "aeolis/avalanching.py: avalanche", "aeolis/bed.py: update, wet_bed_reset", "aeolis/vegetation.py: germinate, grow", "aeolis/fences.py: update_fence_height"]}
{"id": "C161", "title": "The origin of time does not matter", "statement": "With the times in the wind, tide, wave and meteorological series and the start of the groundwater all moved by the same amount, a transect or planar grid at a time moved by that amount does the same: any sequence of calls of update gives the same states, errors and time steps, with the clock moved. Starting from such files gives the same state, with the clock moved. When all series have a common period (for each series its duration plus one second, or a multiple of that), calls of update do the same a period later. Exceptions are steps at time zero, where the code takes the first weights of the fractions from the grain size distribution instead of from the bed, and sets the scanning curves of the moisture; shown by a case.", "quantifier": "all transects and planar grids, numbers of fractions, settings, series, states, time steps and sequences of calls; times after zero, or a composition of the bed from a file and no scanning curves", "why_tests_cant": "it quantifies over every history of calls; tests execute a few finite histories", "anchors": ["aeolis/model.py: AeoLiS.update, AeoLiS.initialize, AeoLiS.solve", "aeolis/utils.py: interp_circular", "aeolis/wind.py: interpolate", "aeolis/hydro.py: interpolate, update", "aeolis/erosion.py: run_ph12"]}
