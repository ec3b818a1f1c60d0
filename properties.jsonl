{"id": "C01", "title": "ODE right-hand side conserves magnetic flux", "statement": "For every state the ODE system accepts, the derivative of B_theta it returns makes div B = 0 in spherical coordinates, both as the solenoid residual the test-suite uses and as the actual divergence of the r-scaled, self-similar field.", "quantifier": "all states, angles with cos(theta) != 0, radii r > 0, all gamma, all diffusivities", "why_tests_cant": "tests evaluate the residual at a handful of sampled states along one solution; the claim is an algebraic/analytic identity over a continuum of states and radii", "anchors": ["src/disc_solver/solve/solution.py:ode_system.rhs_equation", "src/disc_solver/solve/deriv_funcs.py", "src/disc_solver/utils.py:scale_solution_to_radii"]}
{"id": "C02", "title": "ODE right-hand side conserves mass", "statement": "For every accepted state with rho != 0, v_theta != 0 and v_theta^2 != 1, the returned v_theta' and rho' satisfy the continuity equation div(rho v) = 0, as a residual and as a PDE for the r-scaled fields.", "quantifier": "all states with rho, v_theta nonzero, v_theta^2 != 1, all theta, all radii", "why_tests_cant": "an identity over a continuum of real states; a numeric test can only sample and must use tolerances", "anchors": ["src/disc_solver/solve/solution.py:ode_system.rhs_equation", "src/disc_solver/utils.py:scale_solution_to_radii"]}
{"id": "C03", "title": "ODE right-hand side satisfies radial momentum balance", "statement": "With Taylor mode off, the returned v_r' satisfies the radial component of the steady MHD momentum equation (inertia, centrifugal, pressure, gravity, Lorentz force).", "quantifier": "all states with rho, v_theta, v_theta^2-1 and the polar conductance nonzero, all parameters", "why_tests_cant": "continuum of states; numeric tolerance hides sign errors in small terms", "anchors": ["src/disc_solver/solve/solution.py:ode_system.rhs_equation"]}
{"id": "C04", "title": "ODE right-hand side satisfies azimuthal momentum balance", "statement": "With Taylor mode off, the returned v_phi' satisfies the azimuthal component of the steady MHD momentum equation.", "quantifier": "all states with rho, v_theta nonzero, all parameters", "why_tests_cant": "continuum of states", "anchors": ["src/disc_solver/solve/solution.py:ode_system.rhs_equation"]}
{"id": "C05", "title": "ODE right-hand side satisfies polar momentum balance", "statement": "With Taylor mode off, the returned rho' and v_theta' together satisfy the polar component of the steady MHD momentum equation.", "quantifier": "all states with rho, v_theta nonzero and v_theta^2 != 1", "why_tests_cant": "continuum of states", "anchors": ["src/disc_solver/solve/solution.py:ode_system.rhs_equation"]}
{"id": "C06", "title": "Toroidal electric field vanishes", "statement": "For every state, the returned B_r' makes the toroidal electric field (Ohm's law with Ohmic, Hall and ambipolar terms) exactly zero, whichever of the E_r or B_phi' formulations is selected.", "quantifier": "all states with B != 0 and eta_O + eta_A (1 - b_phi^2) != 0, both values of use_E_r", "why_tests_cant": "continuum of states", "anchors": ["src/disc_solver/solve/deriv_funcs.py:deriv_B_r_func", "src/disc_solver/solve/j_e_funcs.py:E_φ_func"]}
{"id": "C07", "title": "E_r formulation recovers B_phi' consistently", "statement": "When use_E_r is on, the B_phi' recovered from the stored E_r is the one for which Ohm's law gives back that E_r.", "quantifier": "all states with nonzero denominators", "why_tests_cant": "continuum of states; the existing tests never compare the two formulations", "anchors": ["src/disc_solver/solve/deriv_funcs.py:deriv_B_φ_func", "src/disc_solver/solve/j_e_funcs.py:E_r_func", "src/disc_solver/solve/solution.py:ode_system.rhs_equation"]}
{"id": "C08", "title": "B_phi'' formulation satisfies the induction equation", "statement": "When use_E_r is off, along any curve that solves the ODE system the radial electric field obeys dE_r/dtheta = (gamma - 3/4) E_theta (curl E = 0).", "quantifier": "all differentiable curves whose derivative at theta is the returned derivative", "why_tests_cant": "quantifies over solution curves; the existing numeric test only compares B_phi' to its own derivative and is vacuous", "anchors": ["src/disc_solver/solve/deriv_funcs.py:dderiv_B_φ_soln", "src/disc_solver/solve/j_e_funcs.py"]}
{"id": "C09", "title": "E_r derivative equals the curl-free condition", "statement": "When use_E_r is on, the returned derivative of E_r is (gamma - 3/4) E_theta, which is exactly the statement that the toroidal part of curl E vanishes for the r-scaled field.", "quantifier": "all states, radii and angles", "why_tests_cant": "continuum", "anchors": ["src/disc_solver/solve/deriv_funcs.py:deriv_E_r_func"]}
{"id": "C10", "title": "Currents are the curl of the self-similar field", "statement": "J_r, J_theta, J_phi computed from a profile equal the spherical components of curl B of the r-scaled field at every radius.", "quantifier": "all differentiable profiles, all r > 0, |theta| < pi/2, all gamma", "why_tests_cant": "statement about partial derivatives of every smooth profile", "anchors": ["src/disc_solver/solve/j_e_funcs.py:J_r_func", "src/disc_solver/solve/j_e_funcs.py:J_θ_func", "src/disc_solver/solve/j_e_funcs.py:J_φ_func"]}
{"id": "C11", "title": "Field-direction derivatives are those of a unit vector", "statement": "The direction cosines used are those of a unit vector whenever B != 0, the derivatives returned for them are the true derivatives along any curve, and they are orthogonal to the direction.", "quantifier": "all differentiable field curves with B != 0", "why_tests_cant": "quantifies over curves", "anchors": ["src/disc_solver/solve/deriv_funcs.py:B_unit_derivs", "src/disc_solver/solve/solution.py:ode_system.rhs_equation"]}
{"id": "C12", "title": "Diffusivities scale as B^2/rho", "statement": "With eta_derivs on, each diffusivity changes exactly as its initial value times |B|^2/rho does, along any curve following the returned derivatives; with eta_derivs off each diffusivity is constant.", "quantifier": "all curves following the ODE, all three diffusivities", "why_tests_cant": "quantifies over solution curves", "anchors": ["src/disc_solver/solve/deriv_funcs.py:deriv_η_skw_func", "src/disc_solver/solve/solution.py:ode_system.rhs_equation"]}
{"id": "C13", "title": "Unphysical states are rejected without side effects on the derivative", "statement": "rhs returns a positive (recoverable) code exactly when rho < 0, a negative (unrecoverable) code exactly when rho >= 0 and v_theta < 0, otherwise 0; the derivative vector is written exactly in the last case, and every rejection is recorded under the angle at which it happened.", "quantifier": "all states, angles and histories of calls", "why_tests_cant": "ranges over all call histories", "anchors": ["src/disc_solver/solve/solution.py:ode_system.rhs_equation", "src/disc_solver/file_format/_containers.py:Problems"]}
{"id": "C14", "title": "Internal data stays aligned", "statement": "After any sequence of solver callbacks, the recorded derivs, params, angles and the six v_r/v_phi/rho debug arrays have equal length, one entry per accepted call in call order; joining and flipping internal data preserves this alignment.", "quantifier": "all call sequences, all joins and flips", "why_tests_cant": "ranges over unbounded histories", "anchors": ["src/disc_solver/solve/solution.py:ode_system", "src/disc_solver/file_format/_containers.py:InternalData"]}
{"id": "C15", "title": "Midplane boundary conditions are dynamically consistent", "statement": "The initial conditions chosen at the midplane make the numerators of radial and azimuthal momentum vanish there (so the 0/0 at v_theta = 0 is regular), make E_phi = 0, and give an E_r equal to Ohm's law evaluated at the midplane.", "quantifier": "all inputs for which define_conditions succeeds", "why_tests_cant": "continuum of inputs", "anchors": ["src/disc_solver/solve/config.py:v_φ_boundary_func", "src/disc_solver/solve/config.py:B_φ_prime_boundary_func", "src/disc_solver/solve/config.py:E_r_boundary_func", "src/disc_solver/solve/config.py:define_conditions"]}
{"id": "C16", "title": "define_conditions fails exactly when no real midplane rotation exists or the input is malformed", "statement": "define_conditions raises SolverError exactly when the discriminant for v_phi is negative; otherwise it returns conditions with v_theta = 0, rho = B_theta = 1, v_r = -v_rin, and the number of angles requested.", "quantifier": "all numeric inputs", "why_tests_cant": "decision over a continuum", "anchors": ["src/disc_solver/solve/config.py:define_conditions"]}
{"id": "C17", "title": "First-order midplane expansion is exact", "statement": "The first-order Taylor coefficients used near the midplane are the values forced by the governing equations: v_theta' = -2 gamma v_r, B_r' and B_phi' those of Ohm's law and azimuthal momentum, all others 0 by reflection symmetry.", "quantifier": "all midplane states", "why_tests_cant": "continuum", "anchors": ["src/disc_solver/solve/deriv_midplane.py:get_taylor_first_order"]}
{"id": "C18", "title": "Second-order midplane expansion satisfies the governing equations", "statement": "The second-order Taylor coefficients (rho'', v_r'', v_phi'', B_theta'', eta'') satisfy the equations obtained by differentiating the ODE at the midplane.", "quantifier": "all midplane states with nonzero denominators", "why_tests_cant": "continuum; the hand derivation has no test", "anchors": ["src/disc_solver/solve/deriv_midplane.py:taylor_series", "src/disc_solver/solve/deriv_midplane.py:get_taylor_second_order"]}
{"id": "C19", "title": "Third-order midplane expansion uses the right component", "statement": "Each entry of the third-order Taylor vector is the third derivative of that same variable.", "quantifier": "all midplane states", "why_tests_cant": "no test covers it", "anchors": ["src/disc_solver/solve/deriv_midplane.py:get_taylor_third_order"]}
{"id": "C20", "title": "Taylor start and numerical continuation meet at the same angle", "statement": "When the midplane Taylor series is used, the first row of the numerically integrated part is the Taylor state at the angle that is recorded for it, and no requested angle is lost or duplicated.", "quantifier": "all angle grids and stop angles", "why_tests_cant": "ranges over all grids", "anchors": ["src/disc_solver/solve/solution.py:taylor_solution", "src/disc_solver/solve/solution.py:taylor_jump", "src/disc_solver/solve/solution.py:solution"]}
{"id": "C21", "title": "Jump over the sonic point lands on the far side by the requested amount", "statement": "jump_across_sonic moves v_theta by jump_before_sonic plus after_sonic along the local tangent, moves every other variable along the same tangent, keeps only angles beyond the landing point, and leaves the direction of integration unchanged.", "quantifier": "all states with v_theta' != 0", "why_tests_cant": "continuum of states", "anchors": ["src/disc_solver/solve/solution.py:jump_across_sonic"]}
{"id": "C22", "title": "Conflicting sonic-crossing options are rejected", "statement": "Requests combining mutually exclusive sonic-crossing modes raise SolverError before any integration; every accepted combination runs exactly one crossing mode.", "quantifier": "all combinations of option values", "why_tests_cant": "combinatorial decision table with value-dependent branches", "anchors": ["src/disc_solver/solve/solution.py:main_solution", "src/disc_solver/solve/solution.py:solution"]}
{"id": "C23", "title": "MHD wave speeds are ordered and are the roots of the dispersion relation", "statement": "For every density > 0, field and sound speed, 0 <= slow^2 <= alfven^2 <= fast^2, slow^2 <= c_s^2 <= fast^2, and slow/fast are the two roots of x^2 - (v_a^2 + c_s^2) x + v_an^2 c_s^2 = 0.", "quantifier": "all real fields, rho > 0, c_s", "why_tests_cant": "continuum", "anchors": ["src/disc_solver/critical_points.py:mhd_wave_speeds"]}
{"id": "C24", "title": "Crossing the fast point implies crossing the others", "statement": "At every sample (with v_theta not negative and B_theta nonzero) where the fast Mach number exceeds 1 the alfven and slow Mach numbers (when their speeds are nonzero) and the sonic Mach number also exceed 1; hence a run reported as crossing the fast point has an alfven and a slow crossing index, none later than it.", "quantifier": "all solutions (any number of rows)", "why_tests_cant": "all solution arrays of any length", "anchors": ["src/disc_solver/critical_points.py:get_mach_numbers", "src/disc_solver/critical_points.py:get_critical_point_indices", "src/disc_solver/critical_points.py:get_all_sonic_points", "src/disc_solver/analyse/info.py:info"]}
{"id": "C25", "title": "first_closest_index finds the first crossing", "statement": "If the data ever crosses the requested value, first_closest_index returns the first position at or beyond the crossing (every earlier non-NaN sample lies strictly on the starting side); if the data never reaches the value the answer is None; a NaN sample is never returned.", "quantifier": "all arrays with or without NaN, all target values", "why_tests_cant": "all arrays of any length", "anchors": ["src/disc_solver/utils.py:first_closest_index", "src/disc_solver/utils.py:interp_for_value"]}
{"id": "C26", "title": "get_closest_value_sorted returns the closest sample", "statement": "For sorted data, the value returned is an element of the data at minimal distance from the target.", "quantifier": "all sorted arrays and targets", "why_tests_cant": "all arrays", "anchors": ["src/disc_solver/utils.py:get_closest_value_sorted"]}
{"id": "C27", "title": "deduplicate keeps one best sample per abscissa", "statement": "The de-duplicated arrays have pairwise distinct abscissae, cover exactly the input abscissae and carry the maximum ordinate seen for each.", "quantifier": "all arrays of pairs", "why_tests_cant": "all arrays of any length", "anchors": ["src/disc_solver/utils.py:deduplicate_and_interpolate"]}
{"id": "C28", "title": "Spherical to cylindrical conversion is an isometry at constant cylindrical radius", "statement": "The component rotation preserves |B|, |v| and B.v in every row and is invertible, toroidal components, density and diffusivities are untouched by it, and the values are those of the self-similar solution at constant cylindrical radius (spherical radius R/cos theta).", "quantifier": "all solutions and angles", "why_tests_cant": "continuum and arbitrary row count", "anchors": ["src/disc_solver/utils.py:convert_spherical_to_cylindrical", "src/disc_solver/utils.py:spherical_r_θ_to_cylindrical_R_z"]}
{"id": "C29", "title": "Radial rescaling is a group action preserving dimensionless ratios", "statement": "Scaling to radius r1 then r2 equals scaling to r1*r2, scaling to 1 is the identity, and the Alfven Mach number, magnetic Reynolds-like ratios and mass flux exponent are those of a steady self-similar flow.", "quantifier": "all solutions, all positive radii", "why_tests_cant": "continuum", "anchors": ["src/disc_solver/utils.py:scale_solution_to_radii", "src/disc_solver/utils.py:get_normalisation"]}
{"id": "C30", "title": "Shock jump conserves mass and momentum flux", "statement": "For v_theta > 1 the modified initial conditions after an isothermal shock conserve rho v_theta and rho (v_theta^2 + 1), leave every other variable unchanged, make the flow subsonic and denser, and applying the jump twice returns the original; only angles at or beyond the shock remain.", "quantifier": "all pre-shock states and angle grids", "why_tests_cant": "continuum", "anchors": ["src/disc_solver/solve/shock.py:get_v_θ_post", "src/disc_solver/solve/shock.py:get_ρ_post", "src/disc_solver/solve/shock.py:get_shock_modified_initial_conditions"]}
{"id": "C31", "title": "Shock candidates are exactly the supersonic samples in range", "statement": "find_shock_test_values yields, in order, exactly the samples satisfying the documented velocity and angle limits.", "quantifier": "all solutions of any length and all limits", "why_tests_cant": "all arrays", "anchors": ["src/disc_solver/solve/shock.py:find_shock_test_values"]}
{"id": "C32", "title": "Angle scaling functions are mutually inverse", "statement": "rad_to_scaled and scaled_to_rad are inverse of each other for every nonzero scale.", "quantifier": "all angles and scales", "why_tests_cant": "continuum", "anchors": ["src/disc_solver/solve/utils.py:rad_to_scaled", "src/disc_solver/solve/utils.py:scaled_to_rad"]}
{"id": "C33", "title": "Solutions container appends without overwriting", "statement": "Adding n solutions stores them under keys 0..n-1 in insertion order, the returned key retrieves the solution just added, and no previously stored solution is ever replaced; get_last returns the most recent.", "quantifier": "all sequences of additions", "why_tests_cant": "unbounded histories", "anchors": ["src/disc_solver/file_format/_containers.py:Solutions"]}
{"id": "C34", "title": "Final solution is write-once and finalise is idempotent", "statement": "A run's final solution, once set, cannot be replaced (a second set raises); finalise sets it to the last solution only when unset and never changes a set one; shock runs start with an empty result.", "quantifier": "all sequences of operations on a run", "why_tests_cant": "unbounded histories", "anchors": ["src/disc_solver/file_format/_containers.py:Run"]}
{"id": "C35", "title": "Solution lookup by name", "statement": "Asking a run for 'final' yields its final solution (None when unset); 'latest' yields the final solution if set and otherwise the stored solution with the largest number; no name means solution 0; any other name yields exactly the stored solution with that key, and a missing key raises rather than returning another solution.", "quantifier": "all runs and names", "why_tests_cant": "all stored sets", "anchors": ["src/disc_solver/utils.py:get_solutions"]}
{"id": "C36", "title": "Problem records accumulate", "statement": "Problem messages are only ever appended; looking up an angle gives all messages for it in order, regardless of whether the key is given as a number or its string; deleting works for the same keys as lookup.", "quantifier": "all operation sequences", "why_tests_cant": "unbounded histories", "anchors": ["src/disc_solver/file_format/_containers.py:Problems"]}
{"id": "C37", "title": "Command-line overrides: validated, last wins, nothing else changes", "statement": "validate_overrides accepts exactly the known option names, keeps the last value of a repeated option; applying overrides changes exactly the overridden fields of the configuration.", "quantifier": "all lists of overrides and all configurations", "why_tests_cant": "unbounded lists", "anchors": ["src/disc_solver/solve/utils.py:validate_overrides", "src/disc_solver/solve/utils.py:add_overrides"]}
{"id": "C38", "title": "Re-solving keeps the solved input except for overrides", "statement": "resolve builds its new input from the old solution's actual input (not the original config), with overrides applied on top; every field not overridden equals the old solution's field.", "quantifier": "all configs, solution inputs and overrides", "why_tests_cant": "all field/override combinations", "anchors": ["src/disc_solver/solve/config.py:new_inputs_with_overrides", "src/disc_solver/solve/resolve.py:resolve"]}
{"id": "C39", "title": "Input conversion round-trips", "statement": "Converting a solution input to config form and back is the identity on every field (given a faithful number printer).", "quantifier": "all inputs", "why_tests_cant": "all inputs", "anchors": ["src/disc_solver/file_format/_containers.py:ConfigInput.to_soln_input", "src/disc_solver/file_format/_containers.py:SolutionInput.to_config_input"]}
{"id": "C40", "title": "Interpolation slices round-trip through text", "statement": "Writing a slice to text and reading it back gives the same slice.", "quantifier": "all slices with integer or absent parts", "why_tests_cant": "all slices", "anchors": ["src/disc_solver/file_format/_containers.py:slice_to_str", "src/disc_solver/file_format/_containers.py:str_to_slice"]}
{"id": "C41", "title": "MCMC variable selections round-trip through text", "statement": "Writing an MCMC variable selection to text and reading it back gives the same selection; unknown names are rejected.", "quantifier": "all selections and strings", "why_tests_cant": "all strings", "anchors": ["src/disc_solver/file_format/_containers.py:mcmc_vars_str_to_obj", "src/disc_solver/file_format/_containers.py:MCMCVars"]}
{"id": "C42", "title": "Config files round-trip", "statement": "Reading a config file written by dump-config gives back the same configuration.", "quantifier": "all configurations", "why_tests_cant": "all field values", "anchors": ["src/disc_solver/file_format/_containers.py:ConfigInput.to_conf_file", "src/disc_solver/solve/config.py:get_input_from_conffile"]}
{"id": "C43", "title": "Saved files load back unchanged", "statement": "Every container the solver builds (runs, solutions, inputs, initial conditions with finite diffusivities, internal data, problems and collections of solutions) can be saved, and loading what was saved gives a container that is the same to its users and can be saved again: all values are equal, except that empty arrays may get another shape and that problems and solutions, found by name, may be listed in another order.", "quantifier": "all container values", "why_tests_cant": "all values", "anchors": ["src/disc_solver/file_format/_dumpers.py", "src/disc_solver/file_format/_loaders.py"]}
{"id": "C44", "title": "Every supported old file version loads with the documented migration", "statement": "For every registered older version of each container and all stored values, loading succeeds and migrates: beta becomes gamma = 5/4 - beta, fields that did not exist yet take the values assumed for them, everything else is kept, and runs that know whether E_r was used tell it to the inputs they hold.", "quantifier": "all versions and stored values", "why_tests_cant": "all values; tests hold few old files", "anchors": ["src/disc_solver/file_format/_loaders.py", "src/disc_solver/file_format/_utils.py:_str_β_to_γ"]}
{"id": "C45", "title": "Binary search stepping: bounded and terminating", "statement": "The search performs at most the allowed number of solves, starts from the given input, stops at the first success, returns nothing when attempts run out or the stepper gives up, and hands over to the final handler when the stepper stops.", "quantifier": "all solver outcomes sequences and attempt limits", "why_tests_cant": "unbounded histories and adversarial solver results", "anchors": ["src/disc_solver/solve/stepper.py:binary_searcher"]}
{"id": "C46", "title": "Step size halves exactly on reversal", "statement": "Throughout a stepping search the step is a tenth of the initial gamma until the first attempt classified differently from the first one, and from that attempt on it is halved at every attempt; each attempt's gamma is the previous one moved by exactly one step.", "quantifier": "all sequences of classification results", "why_tests_cant": "unbounded histories", "anchors": ["src/disc_solver/solve/stepper.py:stepper_creator", "src/disc_solver/solve/stepper.py:step_input"]}
{"id": "C47", "title": "Recorded solutions keep the input they were computed with", "statement": "After the search moves on, the input attached to each earlier recorded solution is still the one it was solved with.", "quantifier": "all search histories", "why_tests_cant": "aliasing over histories", "anchors": ["src/disc_solver/solve/stepper.py:step_input", "src/disc_solver/solve/fast_crosser.py:stepper_creator"]}
{"id": "C48", "title": "Search outcome is written to the run", "statement": "After a search the run holds exactly the attempts made, in order; if an accepted solution was found it is the final solution, if the stepper stopped the last attempt is, if the search failed it is recorded that there is none, and if it raised the final solution is left unset.", "quantifier": "all histories", "why_tests_cant": "unbounded histories", "anchors": ["src/disc_solver/solve/stepper.py:writer_generator", "src/disc_solver/solve/stepper.py:cleanup_generator", "src/disc_solver/solve/stepper.py:alternate_cleanup_generator", "src/disc_solver/solve/stepper.py:solver"]}
{"id": "C49", "title": "Solution acceptance logic", "statement": "A solution passes validation exactly when the integrator reported success, the velocity is never negative and never decreases and the density is never negative; it is taken as the best one exactly when in addition some sample lies strictly between 0.9 and 1 of the sound speed and the velocity never curves upwards over those samples.", "quantifier": "all solutions, any number of rows", "why_tests_cant": "all arrays", "anchors": ["src/disc_solver/solve/utils.py:validate_solution", "src/disc_solver/solve/stepper.py:is_solution_best"]}
{"id": "C50", "title": "Splitter classifies by the v_theta derivative", "statement": "The derivative-based splitter bases its up/down decision on the recorded v_theta derivatives near the end of the solution.", "quantifier": "all internal data", "why_tests_cant": "all arrays", "anchors": ["src/disc_solver/solve/stepper.py:v_θ_deriv_splitter", "src/disc_solver/solve/stepper.py:create_soln_splitter"]}
{"id": "C51", "title": "Fast crosser only moves forward through its phases and stays in its bracket", "statement": "The fast-crosser search never returns to an earlier phase; it goes up from the starting radial velocity in equal steps while the solutions improve, then down likewise; once it has a bracket every velocity it tries lies within the bracket; and the final solution is the best one found.", "quantifier": "all sequences of solver outcomes", "why_tests_cant": "unbounded histories", "anchors": ["src/disc_solver/solve/fast_crosser.py:stepper_creator"]}
{"id": "C52", "title": "MCMC variables round-trip and best solution is the maximum", "statement": "Mapping an input to sampler variables and back is the identity for every variable selection; after any sequence of evaluations the reported best solution is a stored solution of maximal finite log-probability (first on ties), or none if none was finite; invalid inputs are never solved.", "quantifier": "all selections, inputs and evaluation sequences", "why_tests_cant": "unbounded histories", "anchors": ["src/disc_solver/solve/mcmc.py:generate_sysvars_enum", "src/disc_solver/solve/mcmc.py:LogProbGenerator", "src/disc_solver/solve/mcmc.py:solution_input_valid"]}
{"id": "C53", "title": "Parameter scan uses the requested diffusivities", "statement": "Each generated scan input carries exactly the requested eta_O, eta_A, eta_H and the i-th sample of each varied parameter.", "quantifier": "all sample arrays", "why_tests_cant": "all arrays", "anchors": ["src/disc_solver/solve/taylor_space.py:solution_input_generator"]}
{"id": "C54", "title": "solve creates exactly one new file and never overwrites", "statement": "solve, resolve and hdf5runner, under any interleaving of its workers, never change a file that existed before; each output belongs to exactly one run; an unknown method raises; on return the new file holds the run the method left, and its final solution is the one the method chose or else the last one stored. The run hdf5runner stores for a row has the input of that row with the overrides applied, names the method, and records the file and the solution the row was based on.", "quantifier": "all file-system states, methods and solver behaviours", "why_tests_cant": "all environments", "anchors": ["src/disc_solver/solve/__init__.py:solve", "src/disc_solver/solve/resolve.py:resolve", "src/disc_solver/solve/hdf5runner.py:SolutionFinder"]}
{"id": "C55", "title": "CSV input reading", "statement": "Reading a CSV of inputs skips exactly comment lines, keeps metadata, keeps only known columns, applies the label to every row and yields one input per data line in order. An input whose row lacks one of the twenty columns every input needs is refused; each of the other columns may be missing, and the documented value is then assumed.", "quantifier": "all CSV texts", "why_tests_cant": "all texts", "anchors": ["src/disc_solver/solve/utils.py:CSVReaderHelper", "src/disc_solver/solve/utils.py:filter_csv_columns", "src/disc_solver/solve/utils.py:add_labels", "src/disc_solver/solve/utils.py:get_csv_inputs"]}
{"id": "C56", "title": "csvrunner output rows", "statement": "csvrunner writes exactly one row per input whose solver succeeded with a final solution, in input order, whatever the worker scheduling, and a failing input never affects another row.", "quantifier": "all input lists and solver outcomes", "why_tests_cant": "schedules and unbounded lists", "anchors": ["src/disc_solver/solve/csvrunner.py:csvrunner", "src/disc_solver/solve/csvrunner.py:SolutionFinder"]}
{"id": "C57", "title": "Root search does not change the stored initial conditions", "statement": "Evaluating the sonic-root objective leaves the run's initial conditions as they were.", "quantifier": "all guesses and numbers of evaluations", "why_tests_cant": "aliasing over histories", "anchors": ["src/disc_solver/solve/sonic_root.py:total_vars_to_mod_cons"]}
{"id": "C58", "title": "Joined midplane/sonic solution is ordered and aligned", "statement": "The solution stored by the sonic-root search is the midplane part followed by the reversed sonic part, with angles, values and internal data aligned row by row.", "quantifier": "all pairs of partial solutions", "why_tests_cant": "all arrays", "anchors": ["src/disc_solver/solve/sonic_root.py:write_solution"]}
{"id": "C59", "title": "Hydrostatic model satisfies its reduced equations", "statement": "For every static state with positive resistivity that is accepted, the derivatives returned by the hydrostatic and modified-hydrostatic right-hand sides satisfy continuity, the solenoid condition, vertical force balance and poloidal induction, and the vertical velocity stays zero; exactly the inadmissible states are rejected.", "quantifier": "all states with nonzero denominators", "why_tests_cant": "continuum; tests mark two balances as expected failures", "anchors": ["src/disc_solver/solve/hydrostatic.py", "src/disc_solver/solve/mod_hydro.py"]}
{"id": "C60", "title": "Validation plots measure the equations that were solved", "statement": "Each residual plotted by validate-plot is zero whenever the derivative data satisfies the ODE system exactly.", "quantifier": "all states", "why_tests_cant": "continuum", "anchors": ["src/disc_solver/analyse/validate_plot.py"]}
{"id": "C61", "title": "Statistics visit every stored solution once", "statement": "For every list of files, the statistics command visits each stored solution of each readable file exactly once, in order, followed by the final one; a solution that cannot be analysed drops only its own row; an unreadable file drops only its own rows; every written row has every column, filled with the solution's own values.", "quantifier": "all runs", "why_tests_cant": "unbounded", "anchors": ["src/disc_solver/analyse/stats.py:get_all_solutions", "src/disc_solver/analyse/stats.py:write_stats"]}
{"id": "C62", "title": "Plot colours never drop a solution", "statement": "Whatever the number of solutions, the comparison plots draw every solution that was found, once and in order; solutions not found are left out, and a solution that cannot be loaded is reported.", "quantifier": "all n", "why_tests_cant": "all sizes", "anchors": ["src/disc_solver/analyse/utils.py:distinct_color_map"]}
{"id": "C63", "title": "Trajectory following is bounded", "statement": "Following a trajectory yields at most the requested number of points, each one step from the previous, and stops at the edge of the solution.", "quantifier": "all fields, starting points and step limits", "why_tests_cant": "unbounded", "anchors": ["src/disc_solver/analyse/trajectory.py:follow_trajectory", "src/disc_solver/analyse/trajectory.py:compute_values"]}
{"id": "C64", "title": "Output streams are closed", "statement": "A file opened for a block is closed when the block ends, normally or by an exception; a stream passed in is left open; a worker pool is always closed and the error of the block is the one reported.", "quantifier": "all block outcomes", "why_tests_cant": "failure points", "anchors": ["src/disc_solver/utils.py: open_or_stream"]}
{"id": "C65", "title": "Logging level selection", "statement": "For every combination of options and every record, --quiet shows on the terminal exactly the errors, --verbose everything, otherwise exactly the records at or above the chosen level; the log file, if there is one, gets every record.", "quantifier": "all argument combinations", "why_tests_cant": "decision table", "anchors": ["src/disc_solver/logging.py:log_handler"]}
{"id": "C66", "title": "Results do not depend on the internal angle scale", "statement": "Rescaling the integration variable by theta_scale changes only the bookkeeping: the curve returned by solution, in unscaled angles, satisfies the same differential equations whatever theta_scale is.", "quantifier": "all values of theta_scale, all states", "why_tests_cant": "a continuum of scale factors and of solutions", "anchors": ["src/disc_solver/solve/solution.py:ode_system", "src/disc_solver/solve/solution.py:solution"]}
{"id": "C67", "title": "The reported flag reflects the whole computation", "statement": "The status flag and root data stored with a solution describe the outcome of the whole computation, including the legs after the sonic point.", "quantifier": "all option combinations and integrator outcomes", "why_tests_cant": "outcome combinations of several integrations", "anchors": ["src/disc_solver/solve/solution.py:solution"]}
{"id": "C68", "title": "Angles and rows of a stored solution correspond", "statement": "A stored solution has as many rows as angles, its legs are joined in order and each leg starts from the state the previous leg (or the jump or interpolation) ended with.", "quantifier": "all inputs, modes and integrator outcomes", "why_tests_cant": "all option and outcome combinations", "anchors": ["src/disc_solver/solve/solution.py:solution"]}
{"id": "C69", "title": "The reported Alfven speed is that of the disc that was set up", "statement": "At the midplane the Alfven speed computed for a row, relative to the sound speed, is the v_a_on_c_s the user asked for.", "quantifier": "all inputs", "why_tests_cant": "a continuum of inputs", "anchors": ["src/disc_solver/critical_points.py:mhd_wave_speeds", "src/disc_solver/solve/config.py:define_conditions"]}
{"id": "C70", "title": "Interpolated crossing angles lie inside the crossing interval", "statement": "When interp_for_value finds that the samples cross the target between two neighbouring samples, the abscissa it returns lies between those of the two samples.", "quantifier": "all sample sequences and targets", "why_tests_cant": "all sequences", "anchors": ["src/disc_solver/utils.py:interp_for_value", "src/disc_solver/critical_points.py:get_all_sonic_points"]}
{"id": "C71", "title": "The electric field along the shock front is continuous", "statement": "Across the inserted shock the tangential electric field, built from the velocities, fields and currents of the two rows, is unchanged, as Faraday's law requires.", "quantifier": "all rows and shock rows", "why_tests_cant": "a continuum of states", "anchors": ["src/disc_solver/solve/shock.py:get_shock_modified_initial_conditions"]}
{"id": "C72", "title": "Unreadable numbers in a configuration are rejected", "statement": "A configuration whose number field holds text that is not a number is rejected when it is turned into a solver input; no other value is substituted.", "quantifier": "all configurations", "why_tests_cant": "all texts", "anchors": ["src/disc_solver/file_format/_containers.py:ConfigInput.to_soln_input", "src/disc_solver/utils.py:str_to_int"]}
{"id": "C73", "title": "Bisection converges to the boundary", "statement": "If a threshold in gamma separates diverging solutions from sign flips, then once the classification has changed each further attempt halves the distance bound between the next gamma and the threshold.", "quantifier": "all searches, thresholds and positive starting gammas, any number of attempts", "why_tests_cant": "unbounded histories, continuum of thresholds", "anchors": ["src/disc_solver/solve/stepper.py:stepper_creator", "src/disc_solver/solve/stepper.py:step_input"]}
{"id": "C74", "title": "csvrunner output can be fed back", "statement": "A file written by csvrunner, used as the input file of a later run, yields the same solution inputs in the same order.", "quantifier": "all lists of solution inputs", "why_tests_cant": "unbounded lists and values", "anchors": ["src/disc_solver/solve/csvrunner.py:csvrunner", "src/disc_solver/solve/utils.py:get_csv_inputs", "src/disc_solver/file_format/_containers.py:ConfigInput"]}
{"id": "C75", "title": "A zero of the sonic-root objective joins the two parts", "statement": "The objective of the sonic-root search is zero in every component exactly when the part integrated from the midplane and the part integrated from the sonic point end at the same angle with the same velocity, magnetic field and nonzero density; a failed evaluation has the error value in every component; the first guess is the linear extrapolation (logarithmic for density) of the last two midplane rows to polar velocity one.", "quantifier": "all pairs of partial solutions and all guesses", "why_tests_cant": "continuum of states", "anchors": ["src/disc_solver/solve/sonic_root.py:get_root_results", "src/disc_solver/solve/sonic_root.py:guess_root_vals", "src/disc_solver/solve/sonic_root.py:get_sonic_point_value", "src/disc_solver/solve/sonic_root.py:wrap_root_catch_error"]}
{"id": "C76", "title": "Outcome of the sonic-root solver", "statement": "The sonic-root solver stores the midplane solution first and then one joined solution per successful evaluation, takes the last stored one as the final solution and returns the verdict of the root search.", "quantifier": "all inputs, integrators and sequences of guesses", "why_tests_cant": "unbounded search histories", "anchors": ["src/disc_solver/solve/sonic_root.py:solver", "src/disc_solver/solve/sonic_root.py:write_solution"]}
{"id": "C77", "title": "Hydrostatic evolution keeps the disc in balance", "statement": "A solution which starts in radial and azimuthal force balance and follows the hydrostatic (or modified hydrostatic) right-hand side stays in both balances, and the radial electric field stored by the modified model is the one Ohm's law gives.", "quantifier": "all states, parameters and curves following the right-hand side", "why_tests_cant": "It is about the derivative of a residual along every possible solution curve; a test sees a few finite-precision samples.", "anchors": ["src/disc_solver/solve/hydrostatic.py: ode_system, Z_2_func, Z_3_func, X_dash_func", "src/disc_solver/solve/mod_hydro.py: ode_system, v_r_func, v_φ_func, Z_2_func"]}
{"id": "C78", "title": "Hydrostatic solvers start in balance and store one solution", "statement": "The initial conditions of the hydrostatic solvers satisfy every balance at the midplane; a solve that succeeds stores exactly one solution, which is also the final one, and a solve that fails leaves the run untouched; the hydrostatic solver refuses the electric field formulation.", "quantifier": "all inputs, all integrator outcomes, all runs", "why_tests_cant": "All inputs and integrator outcomes cannot be enumerated.", "anchors": ["src/disc_solver/solve/hydrostatic.py: hydrostatic_define_conditions, solver", "src/disc_solver/solve/mod_hydro.py: mod_hydro_define_conditions, solver"]}
{"id": "C79", "title": "Statistics mean what they say", "statement": "The largest differences reported for a solution bound every residual of the equations, and the surface density reported does not depend on how finely the solution was sampled.", "quantifier": "all solutions and samplings", "why_tests_cant": "The claim relates a reported number to all rows and to all other samplings of the same solution.", "anchors": ["src/disc_solver/analyse/stats.py: compute_max_difference_in_equations", "src/disc_solver/analyse/phys_ratio_plot.py: compute_Σ"]}
{"id": "C80", "title": "Outflow ratio is a mass balance", "statement": "The reported ratio of outflow to inflow equals the ratio of the mass fluxes of the self-similar flow, and does not depend on the unit of length.", "quantifier": "all states and units", "why_tests_cant": "It compares formulas over all real states; a test checks single numbers.", "anchors": ["src/disc_solver/analyse/phys_ratio_plot.py: compute_M_dot_out_on_M_dot_in, compute_M_dot_out"]}
{"id": "C81", "title": "A figure depends only on its own arguments", "statement": "Whatever was plotted before in the same process, each plotting function draws the figure a fresh process would draw: axis i carries the name of quantity i and shows that quantity for exactly the rows in the range asked for, relative to the reference its name announces, with exactly the additional lines asked for.", "quantifier": "all histories of plots and all arguments", "why_tests_cant": "The settings are kept in dictionaries shared by all plots and changed by every one of them; the claim is about every sequence of calls.", "anchors": ["src/disc_solver/analyse/utils.py: COMMON_ARGUMENTS, get_common_arguments, plot_log_lines", "src/disc_solver/analyse/plot.py: generate_plot", "src/disc_solver/analyse/vert_plot.py: generate_plot", "src/disc_solver/analyse/params_plot.py: generate_params_plot", "src/disc_solver/analyse/derivs_plot.py: generate_derivs_plot"]}
{"id": "C82", "title": "The plotted terms of each equation add up to it", "statement": "For every stored solution and every range of angles, the component plot of an equation shows its terms and their total: at each angle shown the terms sum to the curve called all terms, and that total is zero where the stored row satisfies the equations and the derivatives are the code's own.", "quantifier": "all solutions, ranges, equations and rows", "why_tests_cant": "A sum of terms that is right for some rows can miss a term that vanishes on them.", "anchors": ["src/disc_solver/analyse/component_plot.py: compute_components, generate_component_plot"]}
{"id": "C83", "title": "The remaining plots draw the quantity they are labelled with", "statement": "The electric-field, combined, Taylor, accretion, surface density, sonic ratio and velocity derivative plots draw, for every solution, exactly one point per sample in the range asked for, at the angle of that sample and with the value of the labelled quantity in the labelled unit.", "quantifier": "all solutions, ranges and units", "why_tests_cant": "A wrong factor or a shifted angle draws a plausible curve; the claim is about every value drawn.", "anchors": ["src/disc_solver/analyse/j_e_plot.py: generate_plot", "src/disc_solver/analyse/combine_plot.py: generate_plot_combine", "src/disc_solver/analyse/taylor_plot.py: generate_taylor_plot", "src/disc_solver/analyse/acc_plot.py: generate_acc_plot", "src/disc_solver/analyse/surface_density_plot.py: generate_surface_density_plot", "src/disc_solver/analyse/sonic_ratio_plot.py", "src/disc_solver/analyse/v_deriv_cmp.py"]}
{"id": "C84", "title": "Colours and markers identify parameters", "statement": "In the plot of physical ratios two solutions share a colour exactly when they agree in the parameter shown by colour, and a marker exactly when they agree in the parameter shown by the marker, for any number of files; the printed table names the colour and marker of every value.", "quantifier": "all lists of files and solutions", "why_tests_cant": "With few files the finite palettes never run out.", "anchors": ["src/disc_solver/analyse/phys_ratio_plot.py: generate_plot"]}
{"id": "C85", "title": "A filter of solutions selects exactly what it says", "statement": "The option --solutions of the divergence plot, a list of names and ranges a-b separated by commas with any blanks, selects exactly the named solutions and the solutions numbered from a to b, both included, in the order written; a solution that is not in the file is reported.", "quantifier": "all lists of names and ranges, all blanks, all files", "why_tests_cant": "Any number of entries and any numbers.", "anchors": ["src/disc_solver/analyse/diverge_plot.py: parse_solution_filter, get_plot_args"]}
{"id": "C86", "title": "ds-info reports what is stored", "statement": "For every file and every group the command accepts, ds-info prints that information about the solution asked for to the output given: the fastest wave the flow overtakes, every solution once in order of probability, and so on; a group it does not know is refused.", "quantifier": "all files, solutions and groups", "why_tests_cant": "Every combination of crossings and of missing parts, files with any number of solutions.", "anchors": ["src/disc_solver/analyse/info.py: info, sort_solutions", "src/disc_solver/critical_points.py: get_all_sonic_points"]}
{"id": "C87", "title": "Interpolation across the sonic point uses the samples asked for", "statement": "With any interpolation slice, the crossing of the sonic point by interpolation uses exactly the recorded angles and derivatives at the positions the slice selects in the sense of the Python language, in their order and paired; the default slice selects the samples between the thousandth and the hundredth from the end; a zero step is refused.", "quantifier": "all slices, any number of recorded samples", "why_tests_cant": "All slices and all lengths, also shorter than the bounds.", "anchors": ["src/disc_solver/solve/solution.py: interp_cross_sonic", "src/disc_solver/file_format/_containers.py: SolutionInput.interp_slice"]}
{"id": "C88", "title": "The slope at the sonic point is that of a smooth crossing", "statement": "deriv_v_θ_sonic, called with the state at the sonic point and the derivatives there, returns the slope of v_θ of every curve that satisfies the equations in the E_r formulation, rises through v_θ = 1 and has a continuous derivative there; it raises SolverError when the slope is not determined.", "quantifier": "all parameters, sonic states, diffusivities and curves through them", "why_tests_cant": "A continuum of states and a limit at a singular point of the equations.", "anchors": ["src/disc_solver/solve/sonic_point.py: deriv_v_θ_sonic, A_up_func, A_down_func, Z_5_up_func, Z_5_down_func, dderiv_B_φ_up_func, dderiv_B_φ_down_func, dderiv_B_r_up_func, dderiv_B_r_down_func, S_1_dash_up_func, S_1_dash_down_func"]}
{"id": "C89", "title": "Jacobians of a solution are those of the equations", "statement": "compute_jacobian_from_solution returns one matrix for every row of a solution; its entry [j, i] is the central difference, with the given step, of derivative j in variable i of the right-hand side the solver integrates. Where the state is not singular (some field and density, v_θ not 0 or ±1, positive Ohmic diffusivity) it differs from the true partial derivative by at most a constant times the square of the step. compute_jacobian_at_index returns the same matrix for one row.", "quantifier": "all solutions, rows, steps and pairs of variables", "why_tests_cant": "The accuracy is a statement about all small steps at a continuum of states.", "anchors": ["src/disc_solver/analyse/compute_jacobian.py: compute_jacobian, compute_jacobian_from_solution, compute_jacobian_at_index", "src/disc_solver/solve/solution.py: ode_system"]}
{"id": "C90", "title": "Coefficients around a critical point reproduce the solution", "statement": "The coefficients drawn by ds-eigenvector-coef-plot, multiplied by the eigenvectors and summed, give the distance of each row from the critical point named, whether the eigenvectors are those of the row or of the critical point; a critical point which is not in the solution is replaced by the last row; the vertical line marks the row at which the Mach number of that name first crosses one.", "quantifier": "all solutions, steps, critical points, eigenvector choices and linear algebra routines that meet their contract", "why_tests_cant": "Every solution and every possible set of eigenvectors; complex eigenvectors and missing critical points are rare.", "anchors": ["src/disc_solver/analyse/compute_jacobian.py: get_eigenvector_coef_around_critical_point, plot_eigenvector_coef_around_sonic_point, CRITICAL_POINT_MAP", "src/disc_solver/critical_points.py: get_critical_point_indices"]}
{"id": "C91", "title": "Eigenvalue plots show every eigenvalue", "statement": "The plots of eigenvalues and eigenvectors draw, for every row between the two angles and for no other, each eigenvalue (or component of an eigenvector) of the Jacobian of that row: the sizes of its real and imaginary parts, with a marker that tells the part and its sign. The plot of norms draws the length squared of every eigenvector.", "quantifier": "all solutions, steps, ranges of angles and complex values", "why_tests_cant": "Every solution and combination of signs.", "anchors": ["src/disc_solver/analyse/compute_jacobian.py: plot_log_complex_data, plot_jacobian_eigenvalues, plot_jacobian_eigenvectors, plot_jacobian_eigenvector_norm, compute_norm"]}
{"id": "C92", "title": "Maxima and judgements in the statistics", "statement": "In the row written by ds-stats every max column is the greatest value over all rows of the solution, with the angle or height of the first row that has it; v_θ_starts_monotonic is true exactly if v_θ never falls between rows within twenty degrees, v_θ_ends_low exactly if the last v_θ is at most ten; a sonic point is given exactly if the Mach number of that kind exceeds one; and max_B_p_on_B_t is the greatest ratio of poloidal to toroidal field.", "quantifier": "all solutions", "why_tests_cant": "Maxima, first positions and monotonicity quantify over all rows of arrays of any length, with NaN and infinities among them.", "anchors": ["src/disc_solver/analyse/stats.py: get_max_mach_numbers, compute_max_vert_jet_velocity, singluar_stats, is_v_θ_monotonic, does_v_θ_end_low, compute_B_poloidal_vs_B_toroidal, labelled_get_all_sonic_points"]}
{"id": "C93", "title": "Options of the plots of one solution", "statement": "A command line of a plot command about one solution is refused, before any file is opened, exactly if it has an unknown option, a value that is not allowed or two options that exclude each other. Otherwise every option has its effect: the plot is drawn with the value given last, or the documented default, the figure has the title, style and size asked for, it is saved exactly if a file name is given and shown exactly if asked, in whichever order and however often options are given.", "quantifier": "all plot commands about one solution, all command lines, all files", "why_tests_cant": "Command lines are unbounded lists of options in any order with repetitions, and the combinations of options are not enumerable.", "anchors": ["src/disc_solver/analyse/utils.py: common_plotting_options, get_common_plot_args, get_common_arguments, analyse_main_wrapper, analysis_func_wrapper, single_solution_plotter, plot_output_wrapper", "src/disc_solver/analyse/plot.py: plot_parser, plot_main", "src/disc_solver/analyse/vert_plot.py: plot_parser, plot_main", "src/disc_solver/analyse/compute_jacobian.py: plot_parser, eigen_parser"]}
{"id": "C94", "title": "Options of the plots of several solutions", "statement": "The plot commands about several solutions draw exactly the solutions named with --runs, in the order given, each as its own file says, and those about whole files draw every solution asked for in the order of their numbers; all other options have the same effect as for plots of one solution.", "quantifier": "all commands about several solutions, all command lines, all files", "why_tests_cant": "Any number of files and solutions, in any order.", "anchors": ["src/disc_solver/analyse/utils.py: multiple_solution_plotter, analyse_main_wrapper_multisolution, analyse_multisolution_wrapper, analysis_func_wrapper_multisolution", "src/disc_solver/analyse/compare_plot.py: plot_main", "src/disc_solver/analyse/conserve_plot.py: conserve_main", "src/disc_solver/analyse/diverge_plot.py: diverge_main"]}
{"id": "C95", "title": "Options of the commands that solve", "statement": "For every command line of ds-soln, ds-resoln, ds-csvrunner and ds-hdf5runner: a line that is not allowed, or an override of a field there is not, ends the command before it reads or writes anything; otherwise the method, the output file and directory, the choice of storing internal data, the overrides (the last value for each field), the number of workers and where the log goes are those given last, or the documented defaults. ds-soln and ds-resoln print the name of the file written and exit with status zero exactly if the solver succeeded.", "quantifier": "all command lines, all configurations, all file systems, all solvers", "why_tests_cant": "Options come in any number and order, and some share a destination.", "anchors": ["src/disc_solver/solve/utils.py: add_solver_arguments, add_worker_arguments, validate_overrides", "src/disc_solver/solve/__init__.py: main", "src/disc_solver/solve/resolve.py: main", "src/disc_solver/solve/csvrunner.py: main", "src/disc_solver/solve/hdf5runner.py: main"]}
{"id": "C96", "title": "Continuing a solution behind a shock", "statement": "ds-shock FILE RANGE starts from exactly the rows of the chosen solution with 1 < v_theta < 10 beyond 40 degrees and beyond the first of the greatest velocities. For each it integrates the original equations once from the state that keeps the mass and momentum flux and is subsonic, over the stored angles from there on. Whatever the workers do and in whatever order they proceed, every continuation solved with at least five angles ends as the only and final solution of a new file in shock_tests, marked as following a shock and naming the file and the solution it is based on. No file that exists is changed.", "quantifier": "all files and ranges, all integrators, all schedules of the workers, all file systems", "why_tests_cant": "The candidates depend on every stored row, and the workers may proceed in any order.", "anchors": ["src/disc_solver/solve/shock.py: ShockFinder, compute_shock, shock_from_file, shock_main", "src/disc_solver/file_format/_containers.py: SolutionInput.new_without_sonic_taylor, Run.create_shock_run", "src/disc_solver/analyse/utils.py: analysis_func_wrapper"]}
{"id": "C97", "title": "Figures and files of field lines and streamlines", "statement": "For every solution, start, step and number of steps, the flow plot shows the field line and the streamline followed from the starts asked for, and exactly the lines through the origin asked for: each critical point the solution has, 45 degrees, the largest angle of the solution and of the streamline, which lies below its line. There is a figure exactly if the critical points are found, a positive number of steps is asked for and no start is above the solution. Saving a trajectory writes the angles, the streamline and the field line to three new files, from which they are read back in order; it changes no file that exists.", "quantifier": "all solutions, all starts and steps, all options, all file systems", "why_tests_cant": "The lines depend on every stored row and every step; files may exist at any stage.", "anchors": ["src/disc_solver/analyse/trajectory.py: generate_plot, plot, save_trajectory", "src/disc_solver/solve/utils.py: CSVWriterHelper"]}
{"id": "C98", "title": "ds-tocsv, ds-tocfg, ds-info, ds-stats and ds-dumpcsv write where they are asked to, and lose nothing", "statement": "For every command line of these five commands and every state of the files: ds-tocsv adds one row with the inputs of the solution named to the file given last with --file, or to the standard output, after a row of names exactly if --with-header is given; ds-dumpcsv and ds-stats add a row of names and a row for every solution which can be read of the files named and, with --with-stdin, of those named on the standard input, in that order; ds-tocfg replaces the contents of the file given last by a configuration from which the input of the solution is read back; ds-info prints the group asked for and writes no file. A usage error, an unreadable file, a missing solution or an output which cannot be opened leaves every file as it was. After any sequence of the commands writing tables every file holds what it held before, followed by rows, and a table collected by ds-tocsv holds exactly the rows asked for in order. No file loses its contents when a command fails.", "quantifier": "all command lines, files, runs, solutions, contents of the disk, failures of opening, and sequences of commands", "why_tests_cant": "command lines, contents of files and sequences of commands are unbounded", "anchors": ["src/disc_solver/analyse/dump_csv.py: dump_main", "src/disc_solver/analyse/dump_config.py: dump_main", "src/disc_solver/analyse/info.py: info_main", "src/disc_solver/analyse/stats.py: many_file_wrapper", "src/disc_solver/analyse/stats.py: stats_main", "src/disc_solver/analyse/stats.py: dump_csv_inputs_main", "src/disc_solver/utils.py: open_or_stream", "src/disc_solver/analyse/utils.py: analyse_main_wrapper"]}
{"id": "C99", "title": "A solution in physical units is a magnetised disc about the given mass", "statement": "For every input for which conditions exist, and every radius, mass and density, multiply the stored profile, extended to all radii, by the norms the package returns for them. The result is a disc in centimetres, grams and seconds: the gas is isothermal on spheres with the requested ratio of sound speed to Keplerian speed; at every radius, and every angle at which the profile follows the equations solved, the field is free of divergence, mass is conserved, and the three components of the momentum equation hold with the gravity of the given mass and the magnetic force of Gaussian units; Ohm's law with the diffusivities in units of radius times sound speed has no toroidal electric field. In the midplane at the given radius the density is the given one, and the inflow speed, Alfven speed and diffusivities are the requested ones.", "quantifier": "all inputs, profiles following the right-hand side, radii, masses, densities and points", "why_tests_cant": "inputs, profiles and points are unbounded and real-valued; the equations are partial differential equations", "anchors": ["src/disc_solver/utils.py:get_normalisation", "src/disc_solver/solve/config.py:define_conditions", "src/disc_solver/solve/solution.py:ode_system", "src/disc_solver/utils.py:scale_solution_to_radii"]}
{"id": "C100", "title": "A hydrostatic solve reports what was integrated", "statement": "A hydrostatic or modified hydrostatic solve asks for exactly one integration, of the initial state of the given conditions over their angles and with the given stopping conditions, or, if the request is invalid, for none and raises an error. However the integration ends, except when the interval is too small, the solution has the integrator's flag, roots, angles in radians and rows, the rows of the electric field formulation having the horizontal velocities that balance them; the internal data, if asked for, has one aligned entry for every accepted call, and every rejected call is recorded. The caller's initial conditions are not changed and the result does not depend on theta_scale.", "quantifier": "all initial conditions, options, integrators, root trackers and histories of callbacks", "why_tests_cant": "integrators, histories and states are unbounded", "anchors": ["src/disc_solver/solve/hydrostatic.py:hydrostatic_solution", "src/disc_solver/solve/hydrostatic.py:solution", "src/disc_solver/solve/hydrostatic.py:ode_system", "src/disc_solver/solve/hydrostatic.py:solver", "src/disc_solver/solve/mod_hydro.py:mod_hydro_solution", "src/disc_solver/solve/mod_hydro.py:solution", "src/disc_solver/solve/mod_hydro.py:fix_solution", "src/disc_solver/solve/mod_hydro.py:ode_system", "src/disc_solver/solve/mod_hydro.py:solver"]}
{"id": "C101", "title": "A configuration file means what it says", "statement": "Reading a configuration file made of comments, blank lines, sections and one-line options gives every option the text after its delimiter in its own section, else in DEFAULT provided the section is there, else its documented fallback, without the blanks around it, with %% standing for a percent sign and %(name)s for the value of that option up to ten levels deep, and None for an empty text where None is allowed. Comments, blank lines, the order of sections and options and the choice of = or : make no difference. A file with an unknown reference, a stray percent sign or references in a circle is refused with a configuration error, never read differently and never looped over; and a text made of ordinary characters, %% and references can be written while one with a percent sign on its own is refused on writing.", "quantifier": "all such files, option names, texts and references", "why_tests_cant": "files, texts and chains of references are unbounded", "anchors": ["src/disc_solver/solve/config.py:get_input_from_conffile", "src/disc_solver/utils.py:CaseDependentConfigParser", "src/disc_solver/file_format/_containers.py:to_conf_file"]}
{"id": "C102", "title": "From the configuration file to the stored solution", "statement": "When ds-soln returns for a configuration file with its default method, it has written exactly one new file, whose name it prints, and its exit status is zero. That file holds a run with one solution, which is the final one, and the run records for every option the text asked for: that of the last --override, else that of the file, else the fallback. The solution is the one the integrator finds with the tolerances, the limit on steps, the options and the numbers asked for, and its first row is the midplane with the inflow and the diffusivities asked for, rotating at the largest speed at which the equations can hold there. Conversely the command succeeds whenever every option can be read, the output name is free, the midplane can be set up and the integrator finds a solution.", "quantifier": "all configuration files, command lines, file systems and integrators", "why_tests_cant": "files, command lines and integrations are unbounded, and the property spans reading, overriding, converting, solving and storing", "anchors": ["src/disc_solver/solve/__init__.py:main", "src/disc_solver/solve/__init__.py:solve", "src/disc_solver/solve/single.py:solver", "src/disc_solver/solve/config.py:get_input_from_conffile", "src/disc_solver/solve/config.py:define_conditions", "src/disc_solver/solve/solution.py:solution"]}
{"id": "C103", "title": "Solving again, any number of times", "statement": "A file made from a configuration file by ds-soln and any number of ds-resoln, each of the file before it and all with the default method, holds a run with one solution, which is the final one. That solution is the one the integrator finds for what the configuration file and all command lines since ask for, the last --override of each option counting. So two such files hold the same solution if the last overrides agree: solving again without overrides repeats the solution, and solving again with overrides gives what ds-soln would have given with them. Solving again without overrides, or with one of the label only, succeeds whenever the output name is free, and records which file and which solution it is based on. Only 0, final and latest name a solution of such a file; any other name raises and writes nothing. Without --output-file the new file is named after the label of the run it is based on, even if the label is overridden.", "quantifier": "all configuration files, command lines and file systems, integrators, and all histories of solving again", "why_tests_cant": "histories have any length, and every step reads what the one before stored", "anchors": ["src/disc_solver/solve/__init__.py:main", "src/disc_solver/solve/resolve.py:resolve", "src/disc_solver/solve/resolve.py:main", "src/disc_solver/solve/config.py:new_inputs_with_overrides", "src/disc_solver/utils.py:get_solutions", "src/disc_solver/solve/single.py:solver"]}
{"id": "C104", "title": "The scan of the Taylor series", "statement": "Whatever numbers are drawn, ds-plot-taylor-space does not fail: at every point of its ranges the midplane can be set up and no division in the Taylor series has a zero divisor. It shows one point for each sample, in order, with the parameters drawn and the second derivatives at the midplane of the disc with these parameters, whose Hall and ambipolar diffusivities are those written in the command the other way round (C53). The two numbers printed are the least second derivatives of the radial and the azimuthal velocity over all samples. The second derivatives of the density and of the vertical field are negative at every point, so they all lie outside the limits [0, None] the command gives for their panels, and those of B_r, B_phi, v_theta and the diffusivities are zero at every point. Without samples it raises.", "quantifier": "all draws of any number of samples", "why_tests_cant": "the samples are random reals; a test sees some of them", "anchors": ["src/disc_solver/solve/taylor_space.py:main", "src/disc_solver/solve/taylor_space.py:compute_taylor_space", "src/disc_solver/solve/taylor_space.py:compute_taylor_values", "src/disc_solver/solve/taylor_space.py:plot_taylor_space", "src/disc_solver/solve/deriv_midplane.py:taylor_series"]}
{"id": "C105", "title": "A search, from the configuration file to the stored solutions", "statement": "When ds-soln --sonic-method step returns, it wrote one new file, printed its name and changed no other file. The file holds the solutions of at least one and at most a hundred attempts in the order they were made. Each of them is what the integrator found, with the tolerances and options asked for, from the midplane of the disc asked for with nothing but gamma changed, and is stored with the gamma it was computed with; the first gamma is the one asked for, and each later one is the one before moved down after a solution that diverged and up after a sign flip, by a tenth of the first gamma until the kinds first differ, then half as far each time. No solution but the last is acceptable, where acceptable means: the integrator succeeded, velocity and density are never negative, the velocity never drops, comes within a tenth of the sound speed and does not speed up there. With exact arithmetic, the automatic choice of kinds and a gamma that is not zero: the exit status is zero exactly if the last solution is acceptable, and it is then the final one; otherwise it is one and there is no final solution; and if the equations can be solved for every gamma within ten times its size, and no fewer than six derivatives are stored when any are, the command always returns.", "quantifier": "all configuration files, command lines, integrators, splitters, arithmetics of gamma and lengths of the search", "why_tests_cant": "the number of attempts and the values of gamma depend on every solution along the way; the claims are about whole searches, from the text of the file to the contents of the output", "anchors": ["src/disc_solver/solve/stepper.py:solver", "src/disc_solver/solve/stepper.py:stepper_creator", "src/disc_solver/solve/stepper.py:binary_searcher", "src/disc_solver/solve/stepper.py:is_solution_best", "src/disc_solver/solve/stepper.py:v_θ_deriv_splitter", "src/disc_solver/solve/__init__.py:main", "src/disc_solver/solve/__init__.py:solve"]}
{"id": "C106", "title": "The internal data of a whole solution", "statement": "When a solution is returned and internal data was asked for, its internal data is the record of every integration that was made for it, in the order they were made: the Taylor start when that was integrated, then every leg (before, across and after the sonic point). Each of the nine columns has exactly one entry for each call of the right-hand side with non-negative density and velocity, in the order of the calls, holding the values of that call computed with the arguments of its leg; and the messages at an angle are those of the rejected calls at that angle, in order. When it was not asked for there is none.", "quantifier": "all integrators, interpolations, initial conditions, options, crossing modes and histories of calls of the right-hand side", "why_tests_cant": "the number of integrations, and of calls in each of them, is decided by the integrator and the crossing mode; the claim is about every history", "anchors": ["src/disc_solver/solve/solution.py:solution", "src/disc_solver/solve/solution.py:main_solution", "src/disc_solver/solve/solution.py:interp_cross_sonic", "src/disc_solver/solve/solution.py:taylor_solution", "src/disc_solver/solve/solution.py:ode_system", "src/disc_solver/file_format/_containers.py:InternalData", "src/disc_solver/file_format/_containers.py:Problems"]}
{"id": "C107", "title": "The hydrostatic solvers and Faraday's law", "statement": "A steady magnetic field needs a curl-free electric field; in the scaled variables the radial electric field of Ohm's law must change with angle at -3/4 of the latitudinal one. Along every curve which follows the right-hand side of a hydrostatic solver this holds: the field stays steady.", "quantifier": "all parameters, static states, kinds of diffusion, angles and differentiable curves following either right-hand side, in both formulations of the modified solver", "why_tests_cant": "a test compares numbers of one run with a reference of the same run; whether the returned second derivative of the azimuthal field is the one of the induction equation is a statement about every state", "anchors": ["src/disc_solver/solve/hydrostatic.py:dderiv_B_φ_func", "src/disc_solver/solve/hydrostatic.py:Z_6_func", "src/disc_solver/solve/hydrostatic.py:Z_7_func", "src/disc_solver/solve/hydrostatic.py:ode_system", "src/disc_solver/solve/mod_hydro.py:Z_6_func", "src/disc_solver/solve/mod_hydro.py:Z_7_func", "src/disc_solver/solve/mod_hydro.py:ode_system", "src/disc_solver/solve/j_e_funcs.py:E_r_func"]}
{"id": "C108", "title": "The fast crosser, from the configuration file to the stored solutions", "statement": "When ds-soln with the method fast_crosser returns, it has written exactly one new file, whose name it prints, with the solutions of at most a thousand attempts in order. Every attempt has one starting radial velocity, beginning with the one asked for and then given by a golden-section search for the largest angle reached. Each attempt searches over gamma, from the one asked for or the last one before, with at most a hundred solutions of which only the last can be acceptable, and then stores the solution for its last gamma out to ninety degrees. Everything else is as asked for in the file and on the command line. The last solution stored is the final one. If there is no disc at the velocity asked for nor one per cent above and below, the command ends with the same SolverError as the other methods.", "quantifier": "all configuration files, command lines, integrators, conversions, arithmetic on gamma, splitters and file systems", "why_tests_cant": "a test runs one configuration with one integrator; the claim ranges over all of them and over every history of the two nested searches", "anchors": ["src/disc_solver/solve/fast_crosser.py:solver", "src/disc_solver/solve/fast_crosser.py:solution_generator", "src/disc_solver/solve/fast_crosser.py:get_next_input", "src/disc_solver/solve/fast_crosser.py:stepper_creator", "src/disc_solver/solve/stepper.py:solver", "src/disc_solver/solve/__init__.py:solve", "src/disc_solver/solve/config.py:get_input_from_conffile"]}
{"id": "C109", "title": "The rows written by ds-csvrunner are inputs of solutions it found", "statement": "ds-csvrunner writes one row for each row of the table that succeeds, in the order of the table, whatever the order in which the workers finish. A row written with the method single is the input as read. A row written with step is the input as read but for gamma, which is the last one of its search. A row written with fast_crosser is the input as read but for the radial velocity, gamma, stop and number of angles of its last solution. Solving a row that was written gives a solution: it is the one that was found.", "quantifier": "all tables, command lines, integrators, conversions, arithmetic on gamma, splitters and orders in which the workers finish", "why_tests_cant": "a test runs one table with one integrator; whether a written row has a solution depends on every attempt of a search and on how the objects of the attempts are shared", "anchors": ["src/disc_solver/solve/csvrunner.py:csvrunner", "src/disc_solver/solve/csvrunner.py:SolutionFinder", "src/disc_solver/solve/fast_crosser.py:solver", "src/disc_solver/solve/fast_crosser.py:stepper_creator", "src/disc_solver/solve/fast_crosser.py:solution_generator", "src/disc_solver/solve/stepper.py:solver", "src/disc_solver/solve/single.py:solver", "src/disc_solver/file_format/_containers.py:Solutions.get_last_solution"]}
{"id": "C110", "title": "What ds-soln --sonic-method mcmc stores, from the configuration file to the output", "statement": "ds-soln --sonic-method mcmc tries one position per walker at the start and one per walker in each iteration. The first positions are the numbers asked for, each times one plus a tenth of a random number; the others are those the sampler chooses. At each position where the sampled parameters are positive, there is a disc and the integrator finds a solution to the tolerances asked for, that solution is stored, in the order of the positions, and nothing but the parameters selected in the configuration is changed. The final solution is the first of those which count best: by how fast they become and how even their steps in v_theta are. The exit status is zero if and only if a solution was found.", "quantifier": "all configuration files, command lines, random numbers, samplers, integrators and conversions", "why_tests_cant": "a test sees one chain of random positions; which positions are stored and which is best must hold for every chain and every integrator", "anchors": ["src/disc_solver/solve/mcmc.py:solver", "src/disc_solver/solve/mcmc.py:LogProbGenerator", "src/disc_solver/solve/mcmc.py:generate_initial_positions", "src/disc_solver/solve/mcmc.py:get_logprob_of_soln", "src/disc_solver/solve/mcmc.py:sys_vars_to_solution_input", "src/disc_solver/solve/__init__.py:solve", "src/disc_solver/solve/__init__.py:main"]}
{"id": "C111", "title": "What ds-soln --sonic-method hydrostatic and mod_hydro store, from the configuration file to the output", "statement": "On return the exit status is zero and the new file whose name is printed holds one solution, which is the final one: the one integration to the tolerances asked for, over the angles and from the midplane of the numbers asked for. hydrostatic refuses the electric field formulation with a SolverError. The first row of hydrostatic is the state without vertical flow, with the inflow and diffusivities asked for, in full balance at the midplane; and every stored derivative conserves mass, keeps the field free of divergence, balances the vertical forces and satisfies the poloidal induction equation. With the electric field, every row mod_hydro stores is in azimuthal balance and in radial balance linearised about Keplerian rotation. If everything asked for can be read and the file can be written, the command succeeds unless the midplane has no solution or the integrator finds the interval too small.", "quantifier": "all configuration files, command lines, integrators, root trackers and conversions", "why_tests_cant": "a test sees one input; that the rows stored belong to the numbers asked for and are balanced must hold for every input and whatever the integrator does", "anchors": ["src/disc_solver/solve/hydrostatic.py:solver", "src/disc_solver/solve/hydrostatic.py:solution", "src/disc_solver/solve/hydrostatic.py:hydrostatic_define_conditions", "src/disc_solver/solve/mod_hydro.py:solver", "src/disc_solver/solve/mod_hydro.py:fix_solution", "src/disc_solver/solve/mod_hydro.py:mod_hydro_define_conditions", "src/disc_solver/solve/__init__.py:solve", "src/disc_solver/solve/__init__.py:main"]}
{"id": "C112", "title": "Every row of a table given to ds-hdf5runner is solved as ds-soln would solve it", "statement": "For a table with distinct column names, among them those every input needs, and whatever the order in which the workers take their steps: each row is configured with the texts of its columns, the assumed text for an optional column which is missing, the label of the command line, and the overrides on top. A row which cannot be read has no file and ends with what was raised. Any other row ends with a file of its own, which holds what the chosen method left; a SolverError leaves the file and counts as a failure. If ds-soln returns for a configuration file asking for the same, with the same method and the same wish for internal data, the file of the row has the same solutions and the same final solution, and the row counts as failed exactly if the exit status was not zero. Other files stay as they are. One message is printed per failed row before the first row that raised, and what that one raised is raised.", "quantifier": "all tables, command lines, configuration files, methods, and all interleavings of the workers", "why_tests_cant": "a test sees one table and one schedule of the workers; that no row sees another row or the batch it is in must hold for every table and every interleaving", "anchors": ["src/disc_solver/solve/hdf5runner.py:SolutionFinder", "src/disc_solver/solve/hdf5runner.py:hdf5runner", "src/disc_solver/solve/hdf5runner.py:main", "src/disc_solver/solve/utils.py:get_csv_inputs", "src/disc_solver/solve/utils.py:add_overrides", "src/disc_solver/solve/__init__.py:solve", "src/disc_solver/utils.py:nicer_mp_pool"]}
{"id": "C113", "title": "With --sonic-method sonic_root, ds-soln stores the midplane part and both parts of every guess tried", "statement": "If ds-soln returns with --sonic-method sonic_root, one new file was written, under the printed name, which holds the configuration of the file with the overrides. Its first solution is the integration from the midplane of the numbers asked for to the target velocity asked for. Then comes one solution for each guess tried, in order, which joins the midplane part and the integration back from the sonic point to where the midplane part ended, and whose initial conditions are those of the midplane. The first guess extrapolates the last step of the midplane part to unit polar velocity. The final solution is the last one, and the exit status is the verdict of the root search.", "quantifier": "all configuration files, command lines, integrators, and all sequences of guesses the root search can try with any verdict", "why_tests_cant": "a test runs one input with one root finder; what is stored must follow from the options for every input and every sequence of guesses", "anchors": ["src/disc_solver/solve/sonic_root.py:solver", "src/disc_solver/solve/sonic_root.py:generate_root_func", "src/disc_solver/solve/sonic_root.py:guess_root_vals", "src/disc_solver/solve/sonic_root.py:total_vars_to_mod_cons", "src/disc_solver/solve/sonic_root.py:write_solution", "src/disc_solver/solve/sonic_root.py:wrap_root_catch_error", "src/disc_solver/solve/__init__.py:solve", "src/disc_solver/solve/__init__.py:main"]}
{"id": "C114", "title": "A stored solution solved again with single is the same solution, whichever ordinary method found it", "statement": "Take any solution, not behind a shock, of a finished run by single, step, fast_crosser or mcmc, in any file left by any number of ds-soln, ds-resoln, ds-hdf5runner and ds-shock, whether those returned, gave up, raised or were stopped, and however the files were copied or moved in between. ds-resoln on it with the method single, no new values and the same wish for internal data succeeds, and writes one new file with exactly that solution, which names the file and solution it is based on and keeps the configuration. With new values on the command line it stores the solution for the stored input with those values replaced, or raises what the solver raises and leaves a file without solutions. A run that ended before it had a final solution is refused with KeyError, and nothing is written, although its file holds the solutions found until then.", "quantifier": "all histories of ds-soln, ds-resoln, ds-hdf5runner and ds-shock, with any order of the steps of the workers, with any methods, configuration files, command lines, integrators, samplers and answers of the person asked; all stored solutions, by number, final or latest", "why_tests_cant": "a test repeats a few runs; that a stored solution carries all that is needed to find it again must hold for every attempt of every search and after any history", "anchors": ["src/disc_solver/solve/resolve.py:resolve", "src/disc_solver/solve/__init__.py:solve", "src/disc_solver/solve/single.py:solver", "src/disc_solver/solve/stepper.py:solver", "src/disc_solver/solve/fast_crosser.py:solver", "src/disc_solver/solve/mcmc.py:solver", "src/disc_solver/file_format/_containers.py:Run"]}
{"id": "C115", "title": "ds-resoln does what ds-soln does for the same values", "statement": "If ds-soln returns for a configuration file with some method, and any solution of any run is solved again by ds-resoln with the same method, the same wish for internal data and the same value of every field of the input, whether stored with the solution or given on the command line, then ds-resoln returns the same exit status and its file has the same solutions and the same final solution.", "quantifier": "all histories of ds-soln, ds-resoln, ds-hdf5runner and ds-shock, with any order of the steps of the workers, stored solutions, methods, configuration files, command lines and integrators", "why_tests_cant": "a test compares a few pairs of runs; the equality must hold for each way to divide the values between the stored solution and the command line, and for every method", "anchors": ["src/disc_solver/solve/resolve.py:resolve", "src/disc_solver/solve/resolve.py:main", "src/disc_solver/solve/__init__.py:solve", "src/disc_solver/solve/__init__.py:main"]}
{"id": "C116", "title": "Whatever ds-soln, ds-resoln, ds-hdf5runner and ds-shock store can be saved and loaded again", "statement": "Every run that ds-soln, ds-resoln, ds-hdf5runner and ds-shock leave, with any method and after any history of commands, can be written to its file, and loading that file gives back the same run: configuration, input of every solution, initial conditions, angles, numbers, flags, internal data with its problems, and where it came from.", "quantifier": "all histories of ds-soln, ds-resoln, ds-hdf5runner and ds-shock, with any order of the steps of the workers, with any methods, configuration files, command lines, integrators, samplers and answers of the person asked; all runs in all files", "why_tests_cant": "the writer fails on some values of some attributes; that no method ever stores such a value must hold for every input and every number of attempts", "anchors": ["src/disc_solver/solve/__init__.py:solve", "src/disc_solver/solve/resolve.py:resolve", "src/disc_solver/file_format/_dumpers.py:_run_dumper", "src/disc_solver/file_format/_dumpers.py:_solution_dumper", "src/disc_solver/file_format/_dumpers.py:_input_dumper", "src/disc_solver/file_format/_loaders.py:_run_loader6", "src/disc_solver/file_format/_containers.py:ConfigInput.to_soln_input"]}
{"id": "C117", "title": "What ds-shock leaves for the other commands", "statement": "Whatever the order of the workers' steps and wherever they are stopped, every run after ds-shock FILE RANGE was there before or continues the chosen solution behind a shock: it has the configuration, method and configuration file of the run it came from, names FILE and RANGE, is marked as following a shock, and holds no solution yet or exactly one of at least five angles, with the initial conditions of the old one and its input without the jump across the sonic point. Once every worker has made its steps, and each had a free file of its own, no candidate whose continuation was found with at least five angles is missing. Solving a stored continuation again with ds-resoln and single does not give it back: it starts from the midplane, whatever values are replaced.", "quantifier": "all histories of ds-soln, ds-resoln, ds-hdf5runner and ds-shock, all files, ranges, integrators and schedules of the workers, all stopping points", "why_tests_cant": "the files depend on every stored row, on the history that made them and on the order in which the workers proceed", "anchors": ["src/disc_solver/solve/shock.py:ShockFinder", "src/disc_solver/solve/shock.py:compute_shock", "src/disc_solver/solve/shock.py:shock_from_file", "src/disc_solver/file_format/_containers.py:Run.create_shock_run", "src/disc_solver/file_format/_containers.py:SolutionInput.new_without_sonic_taylor", "src/disc_solver/solve/resolve.py:resolve"]}
{"id": "C118", "title": "Solutions stored without internal data are still checked against the equations", "statement": "ds-stats reports for a solution stored without internal data how far it is from the equations, from the stored samples alone. If the samples are those of a flow which satisfies an equation, and neighbouring angles are at most h apart, the size of the difference reported for that equation is at most h times a bound on how fast the derivatives of the flow change, times the weights the derivatives have in the equation. For any flow the number is, up to the same amount, the largest signed residual at the samples, so that the approximation hides none and invents none. This holds for continuity, solenoid, the three momentum equations and E_φ; polar induction is not the residual of its equation even with exact derivatives (C60). Between the ends the derivatives used are exact for quadratic flows on any grid; at an end they are off by the spacing. A solution is left out of the table exactly when it has fewer than two angles, or not one state for each angle. A solution with internal data is judged by that data only.", "quantifier": "all flows with Lipschitz derivatives, all grids of increasing angles, all constants", "why_tests_cant": "the bound must hold for every flow and every grid", "anchors": ["src/disc_solver/analyse/validate_plot.py:get_values", "src/disc_solver/analyse/stats.py:compute_max_difference_in_equations"]}
