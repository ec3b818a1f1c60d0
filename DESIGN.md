# Formal model of DiscSolver: design

`/repo` is read as text; nothing is run.  The model is written in Lean 4
(`/verif/lean/Verif`), property statements are in `properties.jsonl`, claim
status is in `MANIFEST.json` (57 proved, 61 partial), wrong-program experiments are in
`seeded/LOG.jsonl`, and the axioms each claimed theorem depends on in `AXIOMS.md`.

## Layout

* `Verif/Model/*.lean`: the code, function by function.  Every definition cites the
  file and lines it models and says where it simplifies.
* `Verif/Spec/*.lean`: small specifications that do not use the model's helpers: steady
  axisymmetric MHD as partial differential equations on spherical fields, the residuals
  of the test-suite, what containers hold and which fields each file version has.
* `Verif/Lemmas/*.lean`: helper lemmas.
* `Verif/Props/*.lean`: the property theorems, each with an `example` beside it showing
  a concrete non-trivial case that meets its hypotheses.

## Modelling decisions

* Numbers.  Float arithmetic is modelled by exact real arithmetic.  Division is Lean's
  real division; every theorem whose English claim needs a nonzero denominator says so
  as a hypothesis, so the totalised `x / 0 = 0` is never relied on.  Where NaN is
  observable in control flow, samples are `Option`s with `none` = NaN and comparisons
  with NaN are false.
* Exceptions are values (`Except PyErr`), one constructor per exception class.
* Mutable objects shared between several holders are modelled with an explicit heap
  (`Stepper`, `SonicRoot`) or an explicit shared state (`Plots`); objects that are not
  shared are plain values.
* External code is a parameter: the ODE integrator (CVODE), `emcee`,
  `scipy.optimize.root`, random numbers, the file system, number printing and parsing.
  Theorems quantify over every behaviour of these parameters, or take the one law they
  need (such as "parsing what was printed gives it back") as a hypothesis or a field of
  a structure.
* When the code does not have a property, the negation is proved with a concrete
  witness, the exact deviation is stated, and the true part is proved, under the suffix
  `_partial` where it is a restriction of the full statement.

## Properties and how they are handled

| ids | model and specification | theorems | proof |
|-----|-------------------------|----------|-------|
| C01, C02, C03, C04, C05, C06, C09, C10 | `Model/State`, `JE`, `Deriv`, `Ode`; `Spec/Residuals`, `Spec/Mhd` | `Props/OdeResiduals`, `MhdPde`, `Electric` | algebraic identity for all states; then `HasDerivAt` of the r-scaled fields against the partial differential equations of `Spec/Mhd` |
| C07, C08 | the same | `Props/Formulations`, `Electric` | exact deviation, condition under which it vanishes, counterexample; C08 differentiates along an arbitrary curve that follows the right-hand side |
| C11, C12 | `Model/Deriv` | `Props/Unit` | `HasDerivAt` along arbitrary curves |
| C13, C14 | `Model/Rhs` | `Props/Rhs` | induction over histories of calls |
| C15, C16, C69 | `Model/Conditions` | `Props/Midplane`, `Waves` | algebra with `Real.sqrt`, case analysis |
| C17, C18, C19 | `Model/Midplane`, `Taylor` | `Props/Midplane`, `Taylor` | the governing equations differentiated at the midplane, compared with the coefficients of the code; exact leading error where they differ |
| C20, C21, C22, C66, C67, C68 | `Model/Solution`, `Slice` | `Props/Solution` | list lemmas and decision tables; the integrator is a parameter |
| C23, C24, C70 | `Model/Waves`, `Arrays` | `Props/Waves`, `Arrays` | real inequalities, induction over rows |
| C25, C26, C27 | `Model/Arrays` | `Props/Arrays` | induction over lists |
| C28, C29 | `Model/Scaling` | `Props/Scaling` | trigonometric identities, laws of real powers |
| C30, C31, C71 | `Model/Shock` | `Props/Shock` | algebra, list lemmas |
| C32 | `Model/Solution` | `Props/Solution` | inverse functions |
| C33, C34, C35, C36 | `Model/Containers` | `Props/Containers` | invariants by induction over operations |
| C37, C38, C39, C40, C41, C72 | `Model/Inputs`, `Text` | `Props/Inputs` | round trips; laws of merging |
| C42 | `Model/ConfigFile`, `Spec/ConfigFile` | `Props/ConfigFile` | printing then parsing, on characters |
| C43, C44 | `Model/FileFormat`; `Spec/FileFormat` | `Props/FileFormat`, `OldFiles` | dumpers, file tree and loaders; structural induction on containers; one table per registered version |
| C45, C46, C47, C48, C49, C50, C73 | `Model/Stepper` | `Props/Stepper`, `Steps`, `Search`, `Acceptance` | invariants over arbitrary outcomes of the solver, explicit heap for shared inputs |
| C51 | `Model/FastCrosser` | `Props/FastCrosser` | invariants over transitions |
| C52 | `Model/Mcmc` | `Props/Mcmc` | round trip, best-so-far invariant over all visits |
| C53 | `Model/TaylorSpace` | `Props/TaylorSpace` | equation per sample |
| C54, C56, C74 | `Model/Runners`, `Csv` | `Props/Runners`, `CsvRunner` | file system as a map, arbitrary schedules of workers |
| C55 | `Model/Csv` | `Props/Csv` | induction over lines |
| C57, C58, C75, C76 | `Model/SonicRoot` | `Props/SonicRoot` | explicit heap, list lemmas |
| C59, C77, C78, C107 | `Model/Hydro`, `ModHydro` | `Props/Hydro`, `ModHydro`, `HydroDrift`, `HydroFaraday` | algebra; derivative of the balance along any curve following the right-hand side |
| C82, C83, C84 | `Model/AnalysisPlots` | `Props/AnalysisPlots` | algebra on rows, exact deviation; induction over files for the colours |
| C85, C86 | `Model/Info` | `Props/Info` | induction over the characters of the filter; decision table, stability of sorting |
| C88 | `Model/SonicPoint` | `Props/SonicPoint` | derivatives along curves, the limit of a quotient at a simple zero, exact error term, concrete curve for the negation |
| C89 | `Model/Jacobian` | `Props/Jacobian` | entry formula by folding over columns; the right-hand side is three times continuously differentiable away from its singular states; Taylor expansion of central differences |
| C90 | `Model/Jacobian` | `Props/Jacobian` | matrix inverse contract; expansion unique; real parts exact iff the coefficients are real; concrete complex eigenvectors for the negation; slice arithmetic for index -1 |
| C91 | `Model/Jacobian` | `Props/Jacobian` | membership of every drawn point, both directions |
| C92 | `Model/StatsValues` | `Props/StatsValues` | first position of the maximum among extended reals with NaN; sorted lists; the columns through C61 |
| C93, C94 | `Model/Cli`, `Spec/Cli` | `Props/Cli` | induction over the options given; each command through a table of the options its arguments come from |
| C95 | `Model/CliSolve`, `Spec/CliSolve` | `Props/CliSolve` | as C93; composed with the theorems about `solve` |
| C96 | `Model/ShockRun`, `ShockFiles` | `Props/ShockRun`, `ShockFiles` | composition of the theorems about candidates, jump conditions, `solution` and the pool of workers |
| C97 | `Model/Flow` | `Props/Flow` | composition of the theorems about trajectories, CSV files and maxima |
| C98 | `Model/CliDump` | `Props/CliDump` | equations for each command line, composed with the theorems about tables and configuration files; induction over the sequence of commands |
| C99 | `Model/Scaling`, `Conditions`, `Ode`; `Spec/Units` | `Props/Units` | change of units in the partial differential equations, composed with the theorems of C01 to C06 |
| C100 | `Model/HydroRun`; `Spec/HydroRun` | `Props/HydroRun` | case analysis on how the integration ends; induction over the callbacks and the stored rows; the intermediate value theorem for the root of the cubic; witnesses where false |
| C101 | `Model/ConfigFile`; `Spec/ConfigDoc` | `Props/ConfigDoc` | refinement: induction over the lines against an invariant relating the parser to the document, and over the text against an inductive meaning; induction over the depth for circles |
| C102 | `Model/SingleRun` with `CliSolve`, `Runners`, `ConfigFile`, `Conditions`, `Solution`; `Spec/EndToEnd` | `Props/EndToEnd` | composition of the theorems of the parts; both directions |
| C103 | the model of C102 with `Runners.resolve`, `Inputs`; `Spec/Resolve` | `Props/Resolve` | induction over the history; the stored run is an invariant |
| C104 | `Model/TaylorScan` with `TaylorSpace`, `Midplane`, `Conditions` | `Props/TaylorScan` | bounds over the ranges of the scan, induction over the samples |
| C105 | `Model/StepRun` with `Stepper`, `SingleRun`, `CliSolve` | `Props/StepRun` | the invariant of the search (C45 to C48) composed with the command line and the configuration file; liveness by excluding every way a search can fail |
| C108 | `Model/CrosserRun` with `FastCrosser`, `StepRun` | `Spec/CrosserRun`, `Props/CrosserRun` | the attempts of the outer search as a list (induction on the attempts left), each an inner search of C105; composed with the command line and the configuration file |
| C109 | `Model/MemRun` with `CrosserRun`, `Runners`, `Csv` | `Props/MemRun` | the run in memory as numbered solutions whose inputs can change; induction on the attempts left, composed with the order of the workers (C56) and the command line |
| C110 | `Model/McmcRun` with `Mcmc`, `SingleRun` | `Spec/McmcRun`, `Props/McmcRun` | the sampler as a function of the values so far which may raise; the positions as a list (induction on the evaluations left), each evaluation an attempt at the numbers of the position; composed with the configuration file and the command line |
| C111 | `Model/HydroMethods` with `HydroRun`, `SingleRun` | `Props/HydroMethods` | the runs of C100 with what they read from the input, composed with the configuration file and the command line; the balances of C59 for the stored rows |
| C112 | `Model/Hdf5Run` with `Runners`, `CliSolve`, `Csv` | `Spec/Hdf5Run`, `Props/Hdf5Run` | an invariant per row over all interleavings (induction on the schedule); each method commutes with a change of the origin of the run (induction on the evaluations for mcmc); composed with the table and with the configuration file of C102 |
| C113 | `Model/SonicRootRun` with `SonicRoot`, `SingleRun` | `Spec/SonicRootRun`, `Props/SonicRootRun` | induction over the guesses tried, with the aliased array as an invariant (C57); the root search as a list of guesses and a verdict, arbitrary functions of the input; composed with the configuration file and the command line |
| C114, C115 | `Model/Hdf5Run` with `Runners`, `CliSolve`, `Inputs`; `Spec/Sessions` | `Props/Sessions` | induction over the session: every run in a file has a canonical, readable configuration, and each of its solutions is found again from its own input (by induction over the attempts for each method); for C115 each method commutes with a change of the origin of the run |
| C116 | `Model/FileFormat`, `Hdf5Run` with `Runners`, `Inputs`; `Spec/Saving` | `Props/Saving` | induction over the session: every input differs from what was read only in floating point numbers and the number of angles (by induction over the attempts for each method), problems hold two messages only, numbers of solutions differ; composed with the round trip of C43; counterexamples |
| C117 | `Model/ShockFiles`; `Spec/Sessions` | `Props/ShockFiles`, `Sessions`, `ShockHistory` | induction over the schedule; the input stored with a continuation and the mark it carries; `single` never sets the mark; a concrete history of `ds-soln`, `ds-shock`, `ds-resoln` |
| C118 | `Model/Approx`; `Spec/Approx` | `Props/Approx` | mean value theorem on each interval; the second order formula is a weighted mean of two difference quotients; the residuals are linear in the derivatives |
| C106 | `Model/Solution` with `Rhs`, `Containers` | `Props/SolutionInternal` | induction over the calls of one integration (C14, C36) composed along the legs |
| C87 | `Model/Slice`, `Solution` | `Props/Slice` | arithmetic of slice bounds, list lemmas |
| C60 | `Model/ValidatePlot` | `Props/ValidatePlot`, `Props/ValidateRows` | algebra on recorded rows, counterexample |
| C61, C79, C80 | `Model/Stats` | `Props/Stats` | list laws, exact values, counterexamples |
| C62, C81 | `Model/Plots` | `Props/Plots` | state of the shared settings carried through every history of plots |
| C63 | `Model/Trajectory` | `Props/Trajectory` | invariants over steps |
| C64 | `Model/Streams` | `Props/Streams` | all outcomes of the body |
| C65 | `Model/Logging` | `Props/Logging` | decision table over options and records |

## Where the code disagrees with a property

Each of these is proved: by a counterexample, an exact error term or an exact condition.
The full statement of every property is kept in `properties.jsonl`.

* C07 (E_r formulation recovers B_phi' consistently): False of the code: exact error, two cases where it holds, counterexample.
* C08 (B_phi'' formulation satisfies the induction equation): False of the code: exact error, exact condition, counterexample.
* C18 (Second-order midplane expansion satisfies the governing equations): False of the code: solenoidal, radial, diffusivity and E_r parts hold; polar and azimuthal momentum fail with the exact leading error proved.
* C19 (Third-order midplane expansion uses the right component): False of the code: the v_θ slot receives the v_φ coefficient.
* C20 (Taylor start and numerical continuation meet at the same angle): False of the code: the inserted starting row is discarded, so the first recorded point of a Taylor start is not the initial condition.
* C21 (Jump over the sonic point lands on the far side by the requested amount): The landing angle is scaled twice: jumps land past the sonic point only when theta_scale = 1 or under a stated bound.
* C22 (Conflicting sonic-crossing options are rejected): Every conflict is rejected and a success uses one mode; rejection before any integration is false for the case conflict_rejected_late exhibits.
* C26 (get_closest_value_sorted returns the closest sample): False of the code: the first sample not below the target is returned, IndexError beyond the end; exact condition proved.
* C28 (Spherical to cylindrical conversion is an isometry at constant cylindrical radius): Rotation proved; the cylindrical rescaling is false of the code away from the midplane unless c^2 = 1, exact condition proved.
* C35 (Solution lookup by name): Holds for loaded runs; false of a run in progress, where the placeholder object is returned instead of None.
* C36 (Problem records accumulate): Deletion by number is false of the code: __delitem__ does not convert its key.
* C39 (Input conversion round-trips): False of the code for an empty MCMC selection, some slices, and shock inputs; exact condition proved.
* C40 (Interpolation slices round-trip through text): False of the code for slices without a stop or with a step and no start; exact condition proved.
* C41 (MCMC variable selections round-trip through text): Round trip proved; unknown names are accepted by the code, exact reading proved.
* C42 (Config files round-trip): Proved on the text of the file, for values on any number of lines. What any configuration without % is read back as is given exactly (conf_file_reads_back), it is the same exactly for texts the format can hold (conf_file_round_trip_iff), and whatever was read from a file is kept (conf_file_reread). False of the code for mcmc_vars None, for % in a value, and for a label with blanks at the ends of its lines or a later line starting like a comment.
* C44 (Every supported old file version loads with the documented migration): Proved for inputs of versions 4 and 6 to 14, solutions 1 to 4, runs 1 to 6 and initial conditions 1 and 2. False of the code, and proved so, for inputs of versions 1, 2, 3 and 5 and internal data of versions 1 and 2: they never load. With NO_CACHE the migration of stored solutions is lost.
* C47 (Recorded solutions keep the input they were computed with): False of the code for runs kept in memory: every recorded input but the last is overwritten with the next one; holds for runs in a file and for the final solution.
* C50 (Splitter classifies by the v_theta derivative): False of the code: it reads the derivatives of all variables at the sixth evaluation instead of the derivatives of v_theta.
* C51 (Fast crosser only moves forward through its phases and stays in its bracket): Phases and sweeps proved; false of the code for the bracketed phase, whose attempts all lie outside the bracket, and for the final solution, which is the last stored and not the best.
* C53 (Parameter scan uses the requested diffusivities): False of the code: eta_A and eta_H are swapped; everything else proved.
* C55 (CSV input reading): True for files with a header and values on one line; false of the code for headerless files and for quoted values with a line starting with #.
* C56 (csvrunner output rows): False of the code when a worker raises anything but SolverError, or a row cannot be read: all later rows are lost. Everything else proved for every schedule.
* C57 (Root search does not change the stored initial conditions): False of the code: InitialConditions(**vars(...)) shares the array, so every evaluation overwrites eight of the eleven initial values with the guess (evaluation_overwrites, search_overwrites; evaluation_changes shows this for every accepted input). Proved part: diffusivities and all other arrays are kept, and the derivatives of the sonic part do not depend on the overwritten entries.
* C58 (Joined midplane/sonic solution is ordered and aligned): The joined solution has the stated shape for all parts, but line 235 reads StatusFlag.SUCESS, so it is stored exactly when the sonic integration failed; otherwise AttributeError (stored_iff_failed).
* C60 (Validation plots measure the equations that were solved): Six of seven residuals are zero on all rows recorded from the equations; "polar induction" is false of the code (sign of Hall and ambipolar terms), with its exact error proved. For rows recorded with the Taylor series or a supplied v_theta derivative, which do not come from the equations, the exact plotted numbers are proved.
* C61 (Statistics visit every stored solution once): True for readable files and for solutions whose analysis raises ValueError. Two parts are false of the code and their negations proved: an unreadable stored solution hides the rest of its file (unreadable_solution_hides) and any other exception in the analysis ends the command (writeLoop_other_error).
* C63 (Trajectory following is bounded): "Every point one step from the previous" is false right after a shortened step, when the same point is yielded twice (follow_repeats); a start outside the solution raises TypeError instead of giving no points; ds-traj always raises TypeError.
* C64 (Output streams are closed): Closing after a normal end is proved; after an exception the file stays open (open_or_stream_leaks). A failing pool set-up loses its error to UnboundLocalError (pool_error_lost).
* C65 (Logging level selection): Terminal output is exact for all options and records. The log file is complete only without --verbose and --quiet; with --verbose it stays empty and with --quiet it misses the errors (both proved).
* C66 (Results do not depend on the internal angle scale): False of the code: derivatives are not multiplied by theta_scale; the exact slope is proved.
* C67 (The reported flag reflects the whole computation): False of the code: only the first leg is reported.
* C69 (The reported Alfven speed is that of the disc that was set up): False of the code: the factor a_0 is missing; exact condition proved.
* C70 (Interpolated crossing angles lie inside the crossing interval): False of the code when the sample after the crossing falls back; true when it does not.
* C71 (The electric field along the shock front is continuous): False of the code in general; exact jump and condition proved.
* C72 (Unreadable numbers in a configuration are rejected): False of the code for integers; an unreadable integer becomes None.
* C74 (csvrunner output can be fed back): True for one csvrunner per file, an MCMC selection that is not empty, and values on one line; false of the code for a file written to twice.
* C76 (Outcome of the sonic-root solver): False for evaluations that succeed: the solver raises AttributeError as soon as the integration from the sonic point succeeds (solver_raises_on_success). When it returns, the stored solutions, the final solution and the verdict are as stated, with failed sonic parts only.
* C77 (Hydrostatic evolution keeps the disc in balance): Azimuthal balance is kept in all formulations. The radial balance is false of the code in the B_phi prime formulations: the exact drift is proved for any diffusion, and shown to be nonzero on a concrete curve; in the E_r formulation the linearised balance holds exactly, and the stored E_r deviates from Ohm's law by an explicit Hall/ambipolar term.
* C79 (Statistics mean what they say): False of the code: the largest signed value hides arbitrarily large negative residuals, and the surface density is proportional to the number of samples of a uniform solution. The theorems give the exact values.
* C80 (Outflow ratio is a mass balance): The balance the ratio should express is proved of the flow; the code's ratio is proved to depend on the unit of length through the factor r^(2 gamma - 1).
* C81 (A figure depends only on its own arguments): All figures are independent of history and show the named rows. One title is wrong: the parameter plot announces v_phi - v_k but shows v_phi (params_title_wrong). The shared settings themselves keep a stale offset (stale_offset), which no modelled figure shows.
* C82 (The plotted terms of each equation add up to it): False of the code for the radial momentum equation, whose terms miss half of v_r squared (radial_components_wrong); true of the others.
* C83 (The remaining plots draw the quantity they are labelled with): False of the code: the combined plot scales the Alfven speed wrongly, the ratio of Taylor series is drawn at other angles, two plots ignore the range asked for, and the surface density is a sum of samples. All else proved.
* C84 (Colours and markers identify parameters): True for at most ten colours and twenty-two markers; beyond that values collide (ratio_colors_collide).
* C85 (A filter of solutions selects exactly what it says): True for names without dashes and upward ranges; downward ranges give their last number only, the end of a range is taken literally, names with dashes raise ValueError.
* C86 (ds-info reports what is stored): False of the code: a solution above the wave speeds from its first row is reported as crossing nothing, sonic-on-scale ignores the output given and raises TypeError without a sonic point, and a missing solution 0 hides the run. The rest is proved.
* C88 (The slope at the sonic point is that of a smooth crossing): True for purely Ohmic diffusion. False otherwise: the second derivative of B_φ misses a term in C, and the derivatives of C and Z_5 have a wrong and a halved ambipolar term (sonic_slope_error, sonic_slope_wrong). The quadratic solver is a parameter with a stated contract.
* C90 (Coefficients around a critical point reproduce the solution): True with the eigenvectors of the critical point, and with those of each row when they are real. False otherwise: only the real parts of the coefficients are kept (real_parts_lose), and with the eigenvectors of the critical point a missing critical point is an IndexError (coef_plot_missing). eig and inv are parameters with a stated contract.
* C92 (Maxima and judgements in the statistics): reported_partial is about solutions that start at rest with matter and a vertical field in every row, and gives every column. False for max_B_p_on_B_t: the ratio is inverted (max_B_inverted) and signed, so that a toroidal field which is nowhere positive is reported as zero (max_B_hides). The sonic points are in radians although the other angles are in degrees.
* C93 (Options of the plots of one solution): Proved for all the commands about one solution, except that ds-vert-plot accepts --v_θ and ignores it (vert_ignores_v_θ). argparse is modelled as documented: options written in full, each with its value as one parsed item.
* C94 (Options of the plots of several solutions): Proved for the commands about several solutions and about whole files. False without --runs, which is a KeyError instead of a usage error (many_needs_runs), and for ds-compare-plot of runs in the E_r formulation, which are labelled as if they were not (compare_ignores_E_r).
* C95 (Options of the commands that solve): True of ds-soln and ds-resoln. False of the runners, which take and ignore options: ds-csvrunner --output-dir, ds-hdf5runner --output-file, and both the options of the log (csvrunner_ignores, hdf5runner_ignores, hdf5runner_names).
* C96 (Continuing a solution behind a shock): True if the file of the continuation can be made, is not there yet and has a name of its own, and the configuration has a label. False otherwise: without the directory shock_tests nothing is stored and the command still ends normally (shock_no_directory).
* C98 (ds-tocsv, ds-tocfg, ds-info, ds-stats and ds-dumpcsv write where they are asked to, and lose nothing): True but for the last sentence: ds-tocfg opens its output before it converts the input, so if the conversion fails (a label with a single percent sign, an input C39 or C42 excludes) the file given is emptied (tocfg_failure_empties, tocfg_loses_file). The names written by ds-stats and ds-dumpcsv are repeated with every use. What was written before an exception is taken to reach the file although open_or_stream does not close it.
* C100 (A hydrostatic solve reports what was integrated): False of the code in four places, each proved with a witness: a call the hydrostatic solver rejects for want of a common solution of its balances is not recorded; asking for fixed velocities zeroes the velocities of the caller's initial conditions; the angles handed to the integrator are not put on its scale, so the reported ones depend on theta_scale (the solvers themselves always use 1); the states at roots keep the velocities the electric field formulation replaces in the rows.
* C107 (The hydrostatic solvers and Faraday's law): True in the E_r formulation (mod_hydro_E_r_faraday). False of the code in both B_phi prime formulations: the exact deviation is proved for any state and diffusion, and is nonzero on concrete curves with Ohmic diffusion only.
* C108 (The fast crosser, from the configuration file to the stored solutions): Proved for every run which returns. False of the code: if nothing is found at the three velocities the command ends with IndexError (crosser_three, witCross_lost), and the solution to ninety degrees is stored twice. The velocities are exact reals, the arithmetic on gamma is any.
* C109 (The rows written by ds-csvrunner are inputs of solutions it found): Proved for single and step, and for the output as a whole. False of fast_crosser: the next input of the outer search is written into the input of the solution stored last, so a search whose last attempt finds nothing writes a row which has no solution (csv_row_without_disc for all such tables, wit_output for one command). Every way it can fail is listed in csv_crosser_row_partial.
* C110 (What ds-soln --sonic-method mcmc stores, from the configuration file to the output): Proved for every run which returns, and returning is proved if the sampler does not raise and the integrator finds a solution or gives up at each position. False of the code: the exit status is zero even if no solution was found (status_zero_without_solution). Numbers are exact reals, so every solution has a finite probability.
* C113 (With --sonic-method sonic_root, ds-soln stores the midplane part and both parts of every guess tried): False of the code for guesses which work: as soon as the integration back from the sonic point ends well, ds-soln stops with AttributeError and leaves a file with the midplane part, the failed guesses before and no final solution (sonic_root_outcome; witS_raises is such a run). Also false: the initial conditions stored with a joined solution are those at the sonic point of its guess, not those of the midplane. Proved part: everything else, for every sequence of guesses and every verdict. The root search is arbitrary; the integrator is arbitrary.
* C116 (Whatever ds-soln, ds-resoln, ds-hdf5runner and ds-shock store can be saved and loaded again): True of every finished run whose configuration is complete and has whole numbers for max_steps, num_angles, nwalkers, iterations and threads (saved_partial); ds-soln, ds-resoln and ds-shock keep configurations complete, and ds-hdf5runner does for tables without short rows (soln_complete, resoln_complete, shock_complete, table_complete). A configuration which is not complete cannot be written (incomplete_not_saved). False otherwise: str_to_int turns other text into None without complaint, the method runs, and its solutions cannot be written (unreadable_not_saved); a run that raised before it had a final solution may be written but cannot be loaded (unfinished_not_loaded). The runs are written as the objects of Model/FileFormat by Spec/Saving; numbers are exact reals, arrays are stored exactly.

Also found, and proved beside the properties named: the E_r hydrostatic model uses
`2 a_0` where the balance has `a_0` and `X_dash_func` has a wrong sign (C77); the
modified hydrostatic model stores an `E_r` that is not Ohm's law (C77); `has_csv_header`
is true for every file (C55); the sonic-root objective ignores the derivative of the
azimuthal field (C75); `get_vertical_scaling` uses the wrong radius (C28); a trajectory
whose start is outside the solution raises `TypeError`, and so does every call of
`ds-traj` (C63); plots in cylindrical height refuse solutions in the E_r formulation
(C81); a stored run without final solution, or with diffusivities that are NaN, or with
a Python number as jump, cannot be read back (C43).


## Trusted base

* Lean 4.33.0's kernel and Mathlib's definitions.  Axioms used are at most `propext`,
  `Classical.choice` and `Quot.sound`; `AXIOMS.md` lists them for every claimed theorem.
  No axioms, `sorry`, `native_decide` or `bv_decide`.
* The transcription of the Python code into Lean, by reading.
* Assumptions about code that is not in `/repo`, each stated where the model uses it:
  * CVODE (`scikits.odes`): returns rows at the angles it reports, in the order of
    integration, and calls the right-hand side with states of its choice.  Nothing is
    assumed of its accuracy.  Theorems about solutions hold for any curve following the
    right-hand side, or for any recorded rows.
  * `scipy`: `root` calls the objective and returns a flag and a point; `interp1d` is
    piecewise linear; `simpson` is the composite rule on the given samples, a parameter.
  * `emcee`: calls the log-probability function at points of its choice; in C110 first at the
    initial positions and then once per walker and iteration, never at a NaN or an infinity,
    and it may raise at any time.
  * `stringtopy`, `configparser`, `csv`: the parts used are modelled on characters;
    `csv.Sniffer` is a parameter.  Encodings and line ends other than `\n` are not.
  * `h5py`/`h5preserve`: a dumper's attributes and members are stored under their names,
    a label and version select the loader, `None` is not a storable attribute, members
    are listed in order of name, `on_demand` members are read when first asked for.
    HDF5 storage of arrays and text is exact, except that text loses trailing NUL
    characters and that `_finalise` reshapes empty arrays.
  * `multiprocessing`: `imap` gives results in order, one per input; `open(..., 'x')`
    creates a file or fails.
  * `logbook`: handlers are asked from the last pushed to the first, `bubble` and
    blackhole handlers as documented.
  * `CubicTracker`: a parameter, with a memory where it matters.
  * `argparse`: stores, appends and sets flags in the order given, refuses unknown
    options, values that are not among the choices and members of an exclusive group
    given together.
  * `matplotlib`: draws what it is given; `palettable` has the palette sizes stated.
* The models of the commands (`Runners`, `CliSolve`, C102-C103, C110-C115) put runs into files
  without encoding them: they assume that storing succeeds.  C43 says what can be encoded, and
  C116 says of the runs of `ds-soln`, `ds-resoln`, `ds-hdf5runner` and `ds-shock` when they can.  Where they cannot (a number
  of threads which is not one, for example) the program raises at the first solution it stores,
  where the models of the commands go on.  A run without a final solution cannot be loaded; that
  is in the models (`load_run`).
* Not modelled: floating-point rounding, overflow and signed zeros (NaN is, where it
  changes control flow); the internals of the libraries above and of numpy; `argparse`'s
  splitting of words into options and values, abbreviations and help (what it does with
  the options is modelled); the text of log messages; layout and styles of plots; what the garbage
  collector closes; aliasing of the input in the fast crosser; `validate_radial_momentum_hydro`, which nothing
  calls; versioning (`_version*.py`).


## Which files of `/repo` are modelled

All under `src/disc_solver/`.

* Modelled: `solve/j_e_funcs`, `deriv_funcs`, `solution`, `deriv_midplane`, `utils`,
  `config`, `stepper`, `single`, `fast_crosser`, `mcmc`, `resolve`, `sonic_root`,
  `taylor_space`, `shock`, `hydrostatic`, `mod_hydro`,
  `sonic_point` (nothing imports it), `csvrunner`, `hdf5runner`, `__init__` (`solve`);
  `file_format/*`; `critical_points`;
  `utils`; `logging`; `analyse/utils`, `stats`, `trajectory`, `validate_plot`,
  `plot`, `vert_plot`, `params_plot`, `derivs_plot`, `compare_plot`, `conserve_plot`,
  `diverge_plot` (which solutions are shown), `component_plot`, `j_e_plot`,
  `combine_plot`, `taylor_plot`, `acc_plot`, `surface_density_plot`, `sonic_ratio_plot`,
  `v_deriv_cmp`, `phys_ratio_plot`, `hydro_check_plot`, `dump_csv`, `dump_config`, `info`,
  `compute_jacobian`.
* Not modelled: `float_handling`; `constants`.
