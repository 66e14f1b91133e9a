{"id": "C01", "title": "Every adaptive solver call ends", "statement": "A call of the adaptive Heun solver always ends after finitely many attempts: either a step is accepted or a ValueError is raised after the hundredth stability violation. It never loops for ever, whatever error estimates (including NaN) and stability verdicts the parts produce.", "quantifier": "every admissible solver configuration, every starting step, every infinite sequence of attempt outcomes (stability verdict with its stable step, error estimate or NaN)", "why_tests_cant": "the outcome sequence is adversarial and unbounded; a test run sees one sequence", "anchors": ["multisim/simenv.py:3920-4260 SimEnv._heun_adaptive"]}
{"id": "C02", "title": "An accepted step meets the tolerance or is at the minimum step size", "statement": "Whenever a step is accepted, its tolerance-scaled RMS error is below 1, or the step length is exactly min_stepsize and the solver state of the step is 6. The four solver states 4, 5, 6, 7 report exactly which of these cases occurred.", "quantifier": "every configuration and every history of rejected attempts before the accepted one", "why_tests_cant": "requires all histories of rejections and all error values, including NaN", "anchors": ["multisim/simenv.py:4144-4201 SimEnv._heun_adaptive"]}
{"id": "C03", "title": "No step is longer than max_stepsize", "statement": "Every step taken by the adaptive solver is at most max_stepsize long, over the whole simulation.", "quantifier": "every configuration accepted by set_timeframe and every sequence of steps and attempts", "why_tests_cant": "invariant over unboundedly many steps; the violating configuration (max_stepsize below the hard-wired first step of 1 s) is not in the test-suite", "anchors": ["multisim/simenv.py:355-422 SimEnv.set_timeframe", "multisim/simenv.py:4156-4188 SimEnv._heun_adaptive"]}
{"id": "C04", "title": "No step is shorter than min_stepsize", "statement": "Every step taken by the adaptive solver is at least min_stepsize long.", "quantifier": "every configuration and every sequence of attempts, including stability violations", "why_tests_cant": "needs the stability branch with a stable step below min_stepsize, an input-dependent event", "anchors": ["multisim/simenv.py:4195-4242 SimEnv._heun_adaptive"]}
{"id": "C05", "title": "Rejected attempts leave no trace in the computed solution", "statement": "If the solver rejects any number of attempts (for error or for instability) and then accepts one with step h, port values, part temperatures and result rows are the same as if the first attempt had been made with h directly.", "quantifier": "every system of parts (arbitrary differential, non-numeric and port update functions), every start state, every number and order of rejected attempts", "why_tests_cant": "the number and kind of rejected attempts is unbounded and depends on the physics", "anchors": ["multisim/simenv.py:3953 SimEnv._heun_adaptive", "multisim/simenv.py:3974-3992", "multisim/simenv.py:4220", "multisim/simenv.py:4242"]}
{"id": "C06", "title": "Step growth is limited by max_factor", "statement": "From one step to the next the step length grows at most by the factor max_factor given by the user.", "quantifier": "every configuration, every error value and every number of consecutive successful steps", "why_tests_cant": "the violating case only shows after more than factor_recovery successful steps", "anchors": ["multisim/simenv.py:301-304 set_timeframe docs", "multisim/simenv.py:4156-4166 SimEnv._heun_adaptive"]}
{"id": "C07", "title": "Simulated time advances strictly and ends at the time frame", "statement": "Every executed loop iteration of start_sim advances the simulated time strictly; the loop runs exactly until the time frame is reached, so the final time is at least the time frame and exceeds it by less than the last step.", "quantifier": "every sequence of positive step lengths", "why_tests_cant": "unbounded number of steps of arbitrary lengths", "anchors": ["multisim/simenv.py:5057-5091 SimEnv.start_sim"]}
{"id": "C08", "title": "The stored results are the complete history", "statement": "After the simulation the time vector and result rows contain the initial row followed by exactly one row per executed step, in order, whether or not buffers were flushed to disk or enlarged on the way and however often.", "quantifier": "every buffer size, every number of steps, disk saving on or off, every step content", "why_tests_cant": "flush boundaries interact with run length; tests never reach one flush (100000 rows)", "anchors": ["multisim/simenv.py:5063-5091 SimEnv.start_sim", "multisim/simenv.py:5278-5422 SimEnv._free_memory", "multisim/simenv.py:4876-4952 SimEnv._finalize_sim", "multisim/simenv.py:5668-5687 SimEnv._crop_results"]}
{"id": "C09", "title": "A finished run can be finalised", "statement": "When the simulation loop has ended, storing the results does not fail with an index error.", "quantifier": "every buffer size and every number of executed steps, with and without disk saving", "why_tests_cant": "only the runs that end exactly on a full buffer fail; such a coincidence is not hit by example runs", "anchors": ["multisim/simenv.py:5086-5091 SimEnv.start_sim", "multisim/simenv.py:4881-4882 SimEnv._finalize_sim", "multisim/simenv.py:5353 SimEnv._free_memory"]}
{"id": "C10", "title": "set_timeframe accepts exactly the documented solver options", "statement": "set_timeframe accepts a keyword set iff the documented ranges hold (timeframe>0, 0<rtol<1, 0<atol<1, 0<min_stepsize<max_stepsize, max_factor>1, 0<min_factor<1, 0<safety_factor<1, factor_recovery>0, bool flags), and the stored configuration satisfies these ranges, so later code can rely on them.", "quantifier": "every combination of given and omitted keyword values", "why_tests_cant": "infinite option space; combinations with defaults (max_stepsize given, min_stepsize omitted) matter", "anchors": ["multisim/simenv.py:243-453 SimEnv.set_timeframe"]}
{"id": "C11", "title": "Registered part names are unique and a rejected part changes nothing", "statement": "No two parts of an environment have the same name; add_part with an already used name raises and leaves the registration of the first part as it was.", "quantifier": "every sequence of add_part calls", "why_tests_cant": "arbitrary call histories", "anchors": ["multisim/simenv.py:691-772 SimEnv.add_part", "multisim/simenv.py:5689-5718 SimEnv._check_isadded"]}
{"id": "C12", "title": "Port numbers are dense and unique", "statement": "After any sequence of parts, additional ports and open ports, the port numbers handed out are exactly 0..n-1, each used once, and every global port array has n entries.", "quantifier": "every sequence of add operations with arbitrary port counts", "why_tests_cant": "arbitrary call histories", "anchors": ["multisim/simenv.py:774-900 SimEnv._add_part", "multisim/simenv.py:902-1084 SimEnv._add_ports", "multisim/simenv.py:1234-1327 SimEnv._add_open_port"]}
{"id": "C13", "title": "Port connection is symmetric", "statement": "If port p is linked to port q then q is linked to p, in the name table and in the index array alike.", "quantifier": "every sequence of connect_ports calls on every set of parts", "why_tests_cant": "arbitrary call histories; violated by a reused boundary condition", "anchors": ["multisim/simenv.py:1944-2143 SimEnv._connect_ports"]}
{"id": "C14", "title": "A port has at most one partner", "statement": "A port that is already connected cannot be connected a second time, and a port cannot be connected to itself.", "quantifier": "every sequence of connect_ports calls, including boundary-condition ports and self connection", "why_tests_cant": "arbitrary call histories", "anchors": ["multisim/simenv.py:1897-2143 SimEnv.connect_ports / _connect_ports"]}
{"id": "C15", "title": "A simulation is only built when every port is connected", "statement": "If building the environment passes the connection check, every port of every part and every open port has a partner; otherwise an AssertionError names exactly the ports without partner.", "quantifier": "every set of parts, ports and connections", "why_tests_cant": "arbitrary topologies", "anchors": ["multisim/simenv.py:2145-2165 SimEnv._check_unconnected_ports"]}
{"id": "C16", "title": "Additional ports keep names, cells and flow directions aligned", "statement": "After adding ports to a part at arbitrary positions, the port cell indices are sorted and inside the part, and each port name still belongs to the cell it was given for and to the flow direction it was declared with.", "quantifier": "every existing port layout and every position (index, volume, distance)", "why_tests_cant": "arbitrary layouts and positions, rounding at cell borders", "anchors": ["multisim/simenv.py:902-1084 SimEnv._add_ports"]}
{"id": "C17", "title": "Mass flow evaluation follows the flow net order", "statement": "Evaluating a flow net writes to every target cell the value of its operation on the source cells as they are at that moment; if every source is either never written or written earlier, the result of every routine holds simultaneously at the end (a solved system of equations) and a second evaluation changes nothing.", "quantifier": "every flow net (list of routines of the nine operation kinds) and every start flow array", "why_tests_cant": "arbitrary nets", "anchors": ["multisim/simenv.py:2620-2704 SimEnv._update_FlowNet"]}
{"id": "C18", "title": "Mass is conserved at connectors, storages and valves", "statement": "With the routines produced for three-way connectors, storages, branched pipes and three-way valves, the signed sum of the mass flows of all ports of the part is zero for all flows at the given ports and all valve positions.", "quantifier": "every flow value, every valve position, every number of ports of a storage, every choice of the port solved last", "why_tests_cant": "real-valued quantification", "anchors": ["multisim/parts/connector_3w.py:262-401 _get_flow_routine", "multisim/parts/mixingvalve.py:416-613 _get_flow_routine", "multisim/parts/tes.py:814-993 _get_flow_routine", "multisim/simenv.py:2620-2704 _update_FlowNet"]}
{"id": "C19", "title": "Valve openings are a partition of one within the limits", "statement": "After initialisation and after every controller action the two port factors of a three-way valve are in [0,1] and add up to 1, and after a controller action port A is within lower_limit..upper_limit.", "quantifier": "every control value (any real) and every sequence of controller actions and resets", "why_tests_cant": "real-valued quantification over histories", "anchors": ["multisim/parts/mixingvalve.py:273-321 init_part", "multisim/parts/mixingvalve.py:404-414", "multisim/parts/mixingvalve.py:615-626 _process_cv"]}
{"id": "C20", "title": "Flow inside a storage obeys the mass balance of every cell", "statement": "For every port layout and every balanced set of port flows, the internal flow between two neighbouring cells is the sum of all port flows at or above the upper cell, upward and downward flows are non-negative and never both non-zero at the same face, and inflow equals outflow for every single cell.", "quantifier": "every number of cells, every sorted port layout with several ports per cell, every port flow vector with zero sum", "why_tests_cant": "array-size and layout are unbounded", "anchors": ["multisim/precomp_funs.py:159-205 _process_flow_var"]}
{"id": "C21", "title": "Flow inside a plain pipe is uniform and upwind", "statement": "For a pipe the flow in every cell equals the flow through its ports, enters at exactly one end (the one given by the sign) and leaves at the other.", "quantifier": "every number of cells and every flow of either sign", "why_tests_cant": "array-size unbounded", "anchors": ["multisim/precomp_funs.py:88-118 _process_flow_invar"]}
{"id": "C22", "title": "Heat conduction inside a part neither creates nor destroys energy", "statement": "The sum over all cells of heat capacity times the conductive temperature rate equals the heat exchanged with the ambient and through the ports; nothing is gained or lost between cells.", "quantifier": "every number of cells, temperatures, conductances and heat capacities", "why_tests_cant": "array-size unbounded, real-valued", "anchors": ["multisim/precomp_funs.py:1031-1234 pipe1D_diff", "multisim/precomp_funs.py:2095-2371 tes_diff"]}
{"id": "C23", "title": "Advection conserves enthalpy up to what crosses the ports", "statement": "With a balanced flow field and cell heat capacities cp*T, the sum over all cells of the advective enthalpy rate equals the enthalpy that enters minus the enthalpy that leaves through the ports.", "quantifier": "every number of cells, flow field, temperature field", "why_tests_cant": "array-size unbounded, real-valued", "anchors": ["multisim/precomp_funs.py:1031-1234 pipe1D_diff", "multisim/precomp_funs.py:159-205 _process_flow_var"]}
{"id": "C24", "title": "A stable explicit step creates no new temperature extremes", "statement": "If the step length satisfies the stability limit, an explicit predictor step of a part keeps every cell temperature between the minimum and maximum of the previous cell temperatures, the inflowing port temperatures and the ambient temperature.", "quantifier": "every number of cells, temperatures, flows, conductances, step lengths meeting the limit", "why_tests_cant": "array-size unbounded, real-valued", "anchors": ["multisim/precomp_funs.py:1031-1234 pipe1D_diff", "multisim/precomp_funs.py:640-757 _vonNeumann_stability_invar"]}
{"id": "C25", "title": "A stability violation is answered by a step that passes the check", "statement": "If a part reports a stability violation at step h, the reported stable step is smaller than 0.95*h and repeating the same check at the step chosen by the solver reports no violation.", "quantifier": "every set of cell properties and flows, every violating step", "why_tests_cant": "real-valued quantification", "anchors": ["multisim/precomp_funs.py:640-1026 _vonNeumann_stability_*", "multisim/simenv.py:4223-4242 _heun_adaptive"]}
{"id": "C26", "title": "The step growth limit never drops below its floor", "statement": "Stability violations lower the growth limit max_factor but never below 1.05 (or below its initial value if that was lower), however many violations occur.", "quantifier": "every sequence of violations", "why_tests_cant": "unbounded histories", "anchors": ["multisim/precomp_funs.py:640-1026 _vonNeumann_stability_*"]}
{"id": "C27", "title": "A time series boundary condition stays within its data", "statement": "The value written for a dynamic boundary condition is always between the smallest and the largest value of the series samples touched by the step; at a sample time reached exactly with steps of at most one sample the value is the sample itself.", "quantifier": "every series, every sampling interval, every sequence of step lengths", "why_tests_cant": "arbitrary sequences of real step lengths", "anchors": ["multisim/simenv.py:2717-2763 SimEnv._update_dyn_BC"]}
{"id": "C28", "title": "An accepted boundary condition series outlasts the simulation", "statement": "If assign_boundary_cond accepts a series for the time frame, updating the boundary condition never runs past the end of the series during the simulation.", "quantifier": "every series length, sampling interval, time frame and sequence of step lengths", "why_tests_cant": "needs the last step of the run to be long enough or the series to be only just long enough", "anchors": ["multisim/simenv.py:1330-1558 SimEnv.assign_boundary_cond", "multisim/simenv.py:2717-2763 SimEnv._update_dyn_BC"]}
{"id": "C29", "title": "Mixing yields a temperature between the inlet temperatures", "statement": "The outlet temperature of a three-way connector or mixing valve lies between the temperatures of the two inflowing streams.", "quantifier": "every pair of inflowing streams and temperatures", "why_tests_cant": "real-valued quantification, violated only in part of the domain", "anchors": ["multisim/precomp_funs.py:3274-3347 solve_connector_3w", "multisim/precomp_funs.py:3585-3613 solve_mix", "multisim/precomp_funs.py:4034-4044 cp_water"]}
{"id": "C30", "title": "Mixing conserves enthalpy", "statement": "For two inflows into a three-way connector or mixing valve, outlet flow times outlet heat capacity times outlet temperature equals the sum of the inflowing enthalpy flows.", "quantifier": "every pair of streams", "why_tests_cant": "real-valued quantification", "anchors": ["multisim/precomp_funs.py:3274-3347 solve_connector_3w", "multisim/precomp_funs.py:3585-3613 solve_mix"]}
{"id": "C31", "title": "Splitting, pumping and idle parts pass temperatures on unchanged", "statement": "A splitting valve hands the inlet temperature unchanged to both outlets, a pump hands each side the temperature of the other side, a connector with one inflow hands it to the outflow, and any value written by these parts lies within the range of the port temperatures read.", "quantifier": "every port temperature and every sign pattern of flows", "why_tests_cant": "real-valued quantification, all sign patterns", "anchors": ["multisim/precomp_funs.py:3274-3347 solve_connector_3w", "multisim/precomp_funs.py:3627-3645 solve_split, solve_pump"]}
{"id": "C32", "title": "Plate heat exchanger: energy balance", "statement": "The heat given off by the supply side equals the heat taken up by the demand side, for all flows, temperatures and heat transfer values.", "quantifier": "every pair of non-zero heat capacity flows, inlet temperatures and UA", "why_tests_cant": "real-valued quantification", "anchors": ["multisim/precomp_funs.py:3358-3558 solve_platehex"]}
{"id": "C33", "title": "Plate heat exchanger: second law", "statement": "Both outlet temperatures lie between the two inlet temperatures, the supply and demand side never exchange more heat than the smaller capacity flow allows, and a zero flow passes temperatures through.", "quantifier": "every pair of capacity flows, inlet temperatures and UA >= 0", "why_tests_cant": "real-valued quantification with exponentials and several numerical branches", "anchors": ["multisim/precomp_funs.py:3358-3558 solve_platehex"]}
{"id": "C34", "title": "Condensing heat exchanger: flow limits and bypass", "statement": "The water flow used for the characteristic is 0 or inside the tabulated range, what exceeds the range is bypassed so that no mass is lost, the mixed outlet temperature lies between bypass and heat exchanger outlet, and a gas flow above the range is refused.", "quantifier": "every water and gas flow", "why_tests_cant": "real-valued quantification over all branches", "anchors": ["multisim/precomp_funs.py:2820-2992 condensing_hex_solve"]}
{"id": "C35", "title": "Controller output stays in its saturation and the actuator in its limits", "statement": "The control value of a PID controller is within CV_saturation (or the declared off state) after every call, and what is written to the actuator is always within the actuator limits, whatever the error, the step length, the slope limit and the dependency on other controllers.", "quantifier": "every controller configuration and every sequence of errors, step lengths and master states", "why_tests_cant": "unbounded histories over reals", "anchors": ["multisim/parts/controllers.py:375-494 PID.run_controller", "multisim/controls.py:841-926 Controls.ctrl, _process_cv_direct, _clip_cv_to_saturation", "multisim/parts/pump.py:472-479"]}
{"id": "C36", "title": "Anti-windup bounds the integral term", "statement": "The integral term of a continuous PID controller never exceeds the anti-windup bound in magnitude, and the previous output used by the discrete velocity algorithm is bounded by it as well.", "quantifier": "every error history and step length history", "why_tests_cant": "unbounded histories", "anchors": ["multisim/parts/controllers.py:393-465 PID.run_controller"]}
{"id": "C37", "title": "The slope limit bounds the change of the control value per second", "statement": "If a slope is configured, the control value changes by at least negative_slope*dt and at most positive_slope*dt in every call.", "quantifier": "every control law, every history of step lengths", "why_tests_cant": "unbounded histories", "anchors": ["multisim/controls.py:895-905 Controls.ctrl"]}
{"id": "C38", "title": "Bang-bang control keeps its state inside the hysteresis band", "statement": "A bang-bang controller switches on below the band, off above the band (reversed for negative hysteresis) and keeps its output unchanged while the process value stays inside the band.", "quantifier": "every history of process values", "why_tests_cant": "unbounded histories; violated with invert=True", "anchors": ["multisim/parts/controllers.py:497-552 BangBang", "multisim/controls.py:928-930 _cv_invert"]}
{"id": "C39", "title": "Two-sensor control: switching off has priority", "statement": "A two-sensor controller is off whenever the off-condition holds, is on whenever the on-condition holds and the off-condition does not, and otherwise keeps its output.", "quantifier": "every history of the two sensors; all four sign combinations", "why_tests_cant": "unbounded histories; violated with invert=True", "anchors": ["multisim/parts/controllers.py:555-658 TwoSensors"]}
{"id": "C40", "title": "A dead time delays the process value by exactly that time", "statement": "With dead time tau and constant step h dividing tau, the process value a controller sees is the one recorded tau earlier; it always stays within the range of recorded values.", "quantifier": "every series of process values, every number of steps per dead time", "why_tests_cant": "unbounded histories; violated for steps longer than the dead time", "anchors": ["multisim/precomp_funs.py:3654-3729 ctrl_deadtime", "multisim/controls.py:705-712", "multisim/controls.py:867-886"]}
{"id": "C41", "title": "Dependent controllers follow their master", "statement": "A concurrent sub-controller is at its off state whenever its master is off; a sequential one is at its off state whenever its master is on; otherwise its own control law applies.", "quantifier": "every master state history and own control law", "why_tests_cant": "unbounded histories; violated when a slope is set", "anchors": ["multisim/controls.py:932-950 Controls._subcontroller_check", "multisim/controls.py:895-905"]}
{"id": "C42", "title": "Resetting a controller restores its initial behaviour", "statement": "After a reset a controller reacts to a sequence of process values exactly as a freshly created one.", "quantifier": "every history before the reset and every input sequence after it", "why_tests_cant": "relational property over two unbounded histories", "anchors": ["multisim/parts/controllers.py:366-373 PID._reset_to_init_cond", "multisim/controls.py:816-839", "multisim/simenv.py:4782-4802 _reset_simenv"]}
{"id": "C43", "title": "CHP plant: minimum running and pause times", "statement": "A CHP plant is not switched off by the controller before its minimum running time has passed since start-up, and not switched on before its minimum pause has passed since shut-down; only over-temperature may stop it earlier.", "quantifier": "every history of requested modulations, temperatures and step lengths", "why_tests_cant": "unbounded histories", "anchors": ["multisim/parts/chp_plant.py:675-774 CHPPlant.get_diff", "multisim/precomp_funs.py:5787-5995 _process_chp_core_modulation"]}
{"id": "C44", "title": "CHP plant: power range and ramp limit", "statement": "The operating state of a CHP plant is 0 or at least its lower modulation limit, and between two running steps the modulation changes by at most the maximum ramp times the step length.", "quantifier": "every history of requested modulations, temperatures and step lengths", "why_tests_cant": "unbounded histories", "anchors": ["multisim/parts/chp_plant.py:675-774 CHPPlant.get_diff", "multisim/precomp_funs.py:5787-5995 _process_chp_core_modulation"]}
{"id": "C45", "title": "CHP plant: over-temperature protection", "statement": "If any internal temperature exceeds the emergency limit a running plant is off in the same step, and an inlet temperature above its maximum stops the plant as soon as the permitted exceedance time is used up, regardless of the requested modulation.", "quantifier": "every history of requests, temperatures and step lengths", "why_tests_cant": "unbounded histories", "anchors": ["multisim/parts/chp_plant.py:675-774 CHPPlant.get_diff", "multisim/precomp_funs.py:5787-5995 _process_chp_core_modulation"]}
{"id": "C46", "title": "Heated pipe: no heating at or above the shutdown temperature", "statement": "If any cell temperature reaches the emergency shutdown temperature, no heat is added to any cell in that step.", "quantifier": "every temperature field and heating vector", "why_tests_cant": "array-size unbounded", "anchors": ["multisim/precomp_funs.py:1872-2091 heatedpipe1D_diff"]}
{"id": "C47", "title": "CHP bonus tariff is the tiered tariff of the law", "statement": "The hourly bonus for CHP electricity is the sum of the tier rates times the power falling in each tier, the tier powers add up to the plant power, and the bonus is non-negative, increasing, continuous at tier borders and never above the rate of the first tier times the power.", "quantifier": "every power >= 0", "why_tests_cant": "real-valued quantification", "anchors": ["multisim/parts/controllers.py:2635-2700 ModelPredCHP._kwk_zuschlag"]}
{"id": "C48", "title": "Electricity balance of the cost model closes", "statement": "In the cost model the CHP production equals own base load use plus tenant use plus feed-in, demand equals own use plus purchase, and none of these is negative.", "quantifier": "every production, base load and tenant load >= 0", "why_tests_cant": "real-valued quantification over all orderings", "anchors": ["multisim/parts/controllers.py:2202-2632 ModelPredCHP._minimizer_input, _minimizer_input_scalar"]}
{"id": "C49", "title": "The modulation returned by the predictive controller is technically possible", "statement": "After clipping, every entry of a modulation plan is 0 or between the lower modulation limit and 1.", "quantifier": "every plan of any length", "why_tests_cant": "array-size unbounded, real-valued", "anchors": ["multisim/parts/controllers.py:1929-2015 ModelPredCHP._longterm_clip_array, _longterm_clip_w_cont"]}
{"id": "C50", "title": "Water properties are physical between 0 and 100 degC", "statement": "Density, heat capacity, conductivity and viscosity of water returned by the polynomials are positive and within physical bounds for all temperatures from 0 to 100 degC.", "quantifier": "every real temperature in the interval", "why_tests_cant": "real interval", "anchors": ["multisim/precomp_funs.py:3954-4142 rho_water, cp_water, lambda_water, ny_water"]}
{"id": "C51", "title": "Mean conductivity and conductances in series and parallel", "statement": "The mean conductivity between two cells lies between the two conductivities (and below their arithmetic mean); a series connection conducts less than each of its members, a parallel connection more, both are independent of the order of the members.", "quantifier": "every positive conductance vector of any length", "why_tests_cant": "array-size unbounded, real-valued", "anchors": ["multisim/precomp_funs.py:471-501 _lambda_mean", "multisim/precomp_funs.py:5296-5348 series_circuit_UA, parallel_circuit_UA"]}
{"id": "C52", "title": "Surface temperature lies between fluid and ambient temperature", "statement": "The steady-state surface temperature of a wall lies between the ambient and the fluid temperature.", "quantifier": "every geometry, conductivity, heat transfer coefficient and temperature pair", "why_tests_cant": "real-valued quantification", "anchors": ["multisim/precomp_funs.py:4910-4965 UA_fld_wll_ins_amb_cyl", "multisim/precomp_funs.py:5230-5292 surface_temp_steady_state"]}
{"id": "C53", "title": "The moving average is the arithmetic mean of its window", "statement": "Each value returned by the moving average equals the arithmetic mean of the window of input values, so constant signals are unchanged and results stay within the range of the window.", "quantifier": "every series length, window length and series", "why_tests_cant": "array-size unbounded; the implementation uses a cumulative sum difference", "anchors": ["multisim/precomp_funs.py:5379-5434 moving_avg, fill_edges, weighted_moving_avg"]}
{"id": "C54", "title": "Heat meters integrate the recorded flows", "statement": "The cumulated mass and heat of a heat meter at step n are the sums of flow times step length up to n; kWh and MJ columns agree by the factor 3.6; positive-only counters are monotone and never below the signed ones; the step lengths add up to the simulated time.", "quantifier": "every recorded history", "why_tests_cant": "unbounded histories", "anchors": ["multisim/_utility/meters.py:70-207 Meters.heat_meter", "multisim/simenv.py:4947-4952 _finalize_sim"]}
{"id": "C55", "title": "Meter names are unique per meter kind", "statement": "Adding a meter under a name already used by a meter of the same kind is refused and the first meter is kept; a name used by another kind is no obstacle.", "quantifier": "every sequence of meter creations", "why_tests_cant": "arbitrary call histories; violated for volume flow meters", "anchors": ["multisim/_utility/meters.py:252-332 Meters.massflow, volumeflow"]}
{"id": "C56", "title": "Error measures are consistent", "statement": "RMSE is at least the absolute mean signed deviation and at least the mean absolute error, all vanish for identical series, R^2 is at most 1 and equals 1 only for identical series, and R^2 of several columns is the R^2 of each column.", "quantifier": "every pair of series of equal length", "why_tests_cant": "array-size unbounded; the multi-column case is violated", "anchors": ["multisim/_utility/stat_error_measures.py:12-268 r_squared, mean_squared_err, mean_abs_err, mean_signed_deviation, rmse"]}
{"id": "C57", "title": "The error estimate of the corrector step is well scaled", "statement": "The tolerance used to scale the local error is positive for every cell, so the scaled error is a finite non-negative number that is zero iff predictor and corrector agree.", "quantifier": "every temperature field", "why_tests_cant": "violated for temperatures at or below -atol/rtol (about -0.001 degC)", "anchors": ["multisim/precomp_funs.py:3733-3782 _heun_corrector_adapt"]}
{"id": "C58", "title": "Enlarging the buffers in memory keeps ports connected to the results", "statement": "After the result buffers have been enlarged during a run without disk saving, the port update still reads the results of the current step.", "quantifier": "every buffer size and every run longer than it", "why_tests_cant": "needs a run longer than 100 times the estimated number of steps", "anchors": ["multisim/simenv.py:5287-5322 SimEnv._free_memory", "multisim/simenv.py:4738 _create_port_updater"]}
{"id": "C59", "title": "Ziegler-Nichols tuning gives usable PID coefficients", "statement": "For positive critical gain and period every supported controller type and rule yields positive coefficients with ki = kp/Tn and kd = kp*Tv; a controller type accepted by the constructor has all coefficients defined.", "quantifier": "every gain, period, controller type and rule", "why_tests_cant": "real-valued; violated for type I and for missing terms", "anchors": ["multisim/parts/controllers.py:15-365 PID.__init__"]}
{"id": "C60", "title": "Control actions are postponed and applied in a fixed order", "statement": "Whatever the order in which parts, open ports, connections, boundary conditions and controllers are declared, building the environment applies them grouped by kind in a fixed order and in declaration order inside each kind, so the result does not depend on how declarations of different kinds are interleaved.", "quantifier": "every interleaving of declaration calls", "why_tests_cant": "arbitrary interleavings", "anchors": ["multisim/simenv.py:4374-4430 SimEnv._call_postponed"]}
{"id": "C61", "title": "An accepted step passed every stability check made while computing it", "statement": "No step is accepted if a part reported a stability violation during any of the evaluations that produced the step.", "quantifier": "every configuration and every attempt outcome", "why_tests_cant": "needs a violation that appears only at the predicted temperatures", "anchors": ["multisim/simenv.py:4028-4049 SimEnv._heun_adaptive"]}
{"id": "C62", "title": "A CHP plant declared running at the start keeps running", "statement": "A CHP plant created with chp_on_at_start=True that is cool and asked for a modulation in its range runs after the first step.", "quantifier": "every plant parameter set and every first step", "why_tests_cant": "depends on the relation between minimum pause and minimum running time", "anchors": ["multisim/parts/chp_plant.py:286-308 CHPPlant.__init__", "multisim/parts/chp_plant.py:561-565 _special_array_init", "multisim/parts/chp_plant.py:675-728 get_diff"]}
{"id": "C63", "title": "A CHP plant never runs above its modulation range", "statement": "The operating state of a CHP plant never exceeds the upper end of the modulation_range given by the user.", "quantifier": "every parameter set and every history of requests", "why_tests_cant": "all requests and histories", "anchors": ["multisim/parts/chp_plant.py:214-226 CHPPlant.__init__", "multisim/parts/chp_plant.py:685-774 get_diff"]}
{"id": "C64", "title": "CHP powers are in range", "statement": "After any history, the electrical power of a CHP plant is between 0 and nominal power times modulation, heat flow and gas power are never negative and never above their nominal values, a plant that is off produces no electricity and burns no gas, and after a stop its heat flow does not rise.", "quantifier": "every history of starts, stops, requests and durations", "why_tests_cant": "the start-up and shut-down factors depend on the whole history", "anchors": ["multisim/parts/chp_plant.py:776-899 get_diff", "multisim/precomp_funs.py:5476-5703 fitted curves"]}
{"id": "C65", "title": "A CHP plant never delivers more energy than it takes in", "statement": "A plant accepted by the constructor (total efficiency checked to be at most 96.1 %) delivers in stationary operation at most its gas power as electricity plus heat, at every modulation.", "quantifier": "every accepted parameter set and every modulation", "why_tests_cant": "real-valued curves; violated only at part load", "anchors": ["multisim/parts/chp_plant.py:127-190 CHPPlant.__init__", "multisim/parts/chp_plant.py:857-880 get_diff", "multisim/precomp_funs.py:5602-5670 chp_thermal_power, chp_gas_power"]}
{"id": "C66", "title": "Accepted valve limits never let a flow routine divide by zero", "statement": "If the topology construction accepts a valve whose opening is used as a divisor to calculate a flow, that opening is never zero, neither initially nor after any controller action.", "quantifier": "every accepted valve configuration and every sequence of control values and resets", "why_tests_cant": "needs the combination of port, limits, initial opening and control history", "anchors": ["multisim/simenv.py:2431-2481 SimEnv._recursive_topology", "multisim/parts/mixingvalve.py:244-403 MixingValve.init_part", "multisim/parts/pipe_with_valve.py:166-200 PipeWithValve.init_part"]}
{"id": "C67", "title": "A reset restores the initial conditions of the parts", "statement": "After initialize_sim(reset_simenv=True) temperatures, pump flows and valve openings of all parts have the values they had directly after building the environment.", "quantifier": "every environment, every order of registration and every previous run", "why_tests_cant": "depends on which arrays are shared between parts and on the order of registration", "anchors": ["multisim/simenv.py:4782-4802 SimEnv._reset_simenv", "multisim/parts/pipe.py:499-501,547-562 Pipe", "multisim/parts/pump.py:344-345 Pump", "multisim/parts/mixingvalve.py:404-414", "multisim/parts/connector_3w.py:259-260"]}
{"id": "C68", "title": "The heat of a heated pipe arrives completely", "statement": "For every way of spreading the heat (all cells, one cell, a range of cells) the heat capacities of the cells times their heating rates add up to exactly the heat flow of the source.", "quantifier": "every number of cells, every accepted range, every temperature profile, every heat flow", "why_tests_cant": "the weights depend on the spread mode and on the temperature of each cell; all combinations are needed", "anchors": ["multisim/parts/heated_pipe.py:70-158 HeatedPipe.__init__", "multisim/precomp_funs.py:2064-2065 heatedpipe1D_diff", "multisim/parts/chp_plant.py:356-419 CHPPlant.__init__"]}
{"id": "C69", "title": "A run accepted step by step passes the final check of the condensing heat exchanger", "statement": "If every gas flow of a run was accepted by the per-step limit check of the condensing heat exchanger, the final result check accepts the run.", "quantifier": "every history of gas flows", "why_tests_cant": "the two checks are in different functions and differ only on a boundary value", "anchors": ["multisim/parts/hex_condensing_polynome.py:564-579 HEXCondPoly._check_results", "multisim/precomp_funs.py:2820-2992 condensing_hex_solve"]}
{"id": "C70", "title": "Inverting a controller reverses its action", "statement": "With `invert=True` a PID controller with symmetric saturation returns the negative of the control value which it returns without inversion, in the continuous and in the discrete time algorithm.", "quantifier": "every controller configuration and every history of errors and step lengths", "why_tests_cant": "relational property over two unbounded histories; differs between the continuous and the discrete time algorithm", "anchors": ["multisim/parts/controllers.py:375-494 PID.run_controller", "multisim/controls.py:928-930 _cv_invert"]}
{"id": "C71", "title": "Own use of CHP electricity is charged with the documented surcharge", "statement": "In the cost function of the predictive controller, own base load use is charged with no EEG surcharge up to 10 kW, with 40 % below 100 kW and fully above, everything else with the full surcharge.", "quantifier": "every plant power, load and modulation", "why_tests_cant": "real-valued quantification; a unit mismatch between two functions", "anchors": ["multisim/parts/controllers.py:2757-2818 ModelPredCHP._eeg_umlage", "multisim/parts/controllers.py:2386-2400 ModelPredCHP._minimizer_input"]}
{"id": "C72", "title": "The cost of a plan is the sum of the costs of its steps", "statement": "The array version of the cost function returns the sum of what the scalar version returns for the entries, and leaves the plan of the caller unchanged.", "quantifier": "every plan of any length, every price setting and load profile", "why_tests_cant": "array-size unbounded; relates two separately written functions", "anchors": ["multisim/parts/controllers.py:2202-2429 ModelPredCHP._minimizer_input", "multisim/parts/controllers.py:2432-2632 ModelPredCHP._minimizer_input_scalar"]}
{"id": "C73", "title": "Electricity is sold at the configured price", "statement": "Own electricity is sold at strompreis_zukauf + aufschlag_verkauf and bought electricity is resold at that price minus penalty_wvk.", "quantifier": "every price setting, load and modulation", "why_tests_cant": "real-valued quantification over all settings", "anchors": ["multisim/parts/controllers.py:2361-2417 ModelPredCHP._minimizer_input", "multisim/parts/controllers.py:1177-1181 ModelPredCHP.__init__"]}
{"id": "C74", "title": "The predictive controller only asks for possible powers", "statement": "After every call the control value is 0 (off) or between the modulation limits of the plant.", "quantifier": "every history of sensor values, optimisation results (also failed ones) and emergency interventions", "why_tests_cant": "unbounded histories", "anchors": ["multisim/parts/controllers.py:1666-1755 ModelPredCHP._emergency_control", "multisim/parts/controllers.py:2102-2161 ModelPredCHP.run_controller"]}
{"id": "C75", "title": "Emergency control overrides the plan", "statement": "While the deactivation condition holds the plant is off; while the activation condition holds and the deactivation condition does not, it runs with at least half of the full power, and with full power beyond the full power offset.", "quantifier": "every plan, history and configuration", "why_tests_cant": "unbounded histories", "anchors": ["multisim/parts/controllers.py:1666-1755 ModelPredCHP._emergency_control", "multisim/parts/controllers.py:2126-2161 ModelPredCHP.run_controller"]}
{"id": "C76", "title": "Adapted storage capacities return to their original values", "statement": "The storage capacities used by the optimisation always lie between the original value and the value of the last emergency adaption, and equal the original values once tes_cap_restore_time has passed since then.", "quantifier": "every history of emergencies and optimisations", "why_tests_cant": "unbounded histories", "anchors": ["multisim/parts/controllers.py:1757-1783 ModelPredCHP._adapt_cap", "multisim/parts/controllers.py:2028-2059 ModelPredCHP._restore_adptd_caps"]}
{"id": "C77", "title": "The storage constraints of the optimisation are the energy balance of the storage", "statement": "The two constraints are non-negative at a step of the plan exactly if the content that production and demand up to this step lead to lies between the two capacities.", "quantifier": "every demand profile, plan and step", "why_tests_cant": "array-size unbounded, real-valued", "anchors": ["multisim/parts/controllers.py:1600-1664 ModelPredCHP.tes_cap_before_empty, tes_cap_before_full", "multisim/parts/controllers.py:1805-1813 ModelPredCHP._longterm_opt_pred"]}
{"id": "C78", "title": "Adjusting a plan to the state of charge gives a plan", "statement": "The adjustment returns a plan of the same length with entries between 0 and 1; it never lowers an entry, and raises the plan if the storage would run empty.", "quantifier": "every plan of any length, every storage behaviour", "why_tests_cant": "array-size unbounded; division by the maximum of the plan", "anchors": ["multisim/parts/controllers.py:1939-1971 ModelPredCHP._longterm_adj_by_soc"]}
{"id": "C79", "title": "Heat transfer coefficients of a shell are positive", "statement": "After every evaluation of a pipe or storage shell the inner and outer heat transfer coefficient and the conductance to the ambient are positive, the conductance is below that of each single layer, and the lid conducts as well.", "quantifier": "every shell geometry and every history of water temperatures (0 to 100 degC), ambient temperatures and mass flows, accepted or not", "why_tests_cant": "unbounded histories; the coefficients of one evaluation depend on those of the evaluation before", "anchors": ["multisim/precomp_funs.py:1119-1165 pipe1D_diff", "multisim/precomp_funs.py:4345-4424 pipe_alpha_i", "multisim/precomp_funs.py:4686-4906 cylinder_alpha_inf, plane_alpha_inf", "multisim/precomp_funs.py:2230-2258 tes_diff"]}
{"id": "C80", "title": "Circuit functions leave their arguments unchanged", "statement": "Combining conductances in series or in parallel does not change the arrays passed in, so that the call can be repeated with the same result.", "quantifier": "every number of arrays of any length", "why_tests_cant": "array-size unbounded; aliasing", "anchors": ["multisim/precomp_funs.py:5296-5348 series_circuit_UA, parallel_circuit_UA"]}
{"id": "C81", "title": "Dividing a wall does not change its conductance", "statement": "The conductance from the fluid to the middle of the wall in series with the one from there to the ambient is the conductance of the whole shell; an insulation of thickness zero does not count.", "quantifier": "every shell geometry and every pair of heat transfer coefficients", "why_tests_cant": "real-valued quantification; relates five separately written formulas with logarithms", "anchors": ["multisim/precomp_funs.py:4910-5226 UA_fld_wll_ins_amb_cyl, UA_fld_wll_amb_cyl, UA_fld_wll_cyl, UA_wll_ins_amb_cyl, UA_wll_amb_cyl, UA_fld_wll_plate, UA_wll_ins_amb_plate"]}
{"id": "C82", "title": "The logarithmic mean temperature difference lies between the differences at the ends", "statement": "For two positive temperature differences at the ends of a heat exchanger the logarithmic mean temperature difference exists and lies between them.", "quantifier": "every four temperatures with positive differences at both ends", "why_tests_cant": "real-valued quantification, logarithm; balanced flows give 0/0", "anchors": ["multisim/precomp_funs.py:5354-5376 log_mean_temp_diff"]}
{"id": "C83", "title": "Numeric heat exchanger: the demand side takes up what the supply side gives up", "statement": "In a steady state without conduction through the ports, the heat flow which the water of the supply side leaves behind equals the heat flow which the water of the demand side takes up.", "quantifier": "every accepted number of plates and passes, every geometry, number of grid points, flow and temperature", "why_tests_cant": "quantifies over all geometries and all steady states; channel numbers differ between the sides", "anchors": ["multisim/precomp_funs.py:2593-2816 hexnum_diff", "multisim/precomp_funs.py:209-246 _process_flow_multi_flow", "multisim/parts/hex_num.py:92-158 HexNum.__init__"]}
{"id": "C84", "title": "Numeric heat exchanger: the grid does not change the heat transfer", "statement": "The conductance between each side and the wall, summed over all cells, depends on the plates and on the heat transfer coefficient, not on the number of grid points.", "quantifier": "every geometry, coefficient and number of grid points", "why_tests_cant": "array-size unbounded; relates two discretisations", "anchors": ["multisim/precomp_funs.py:2712-2714 hexnum_diff", "multisim/precomp_funs.py:5137-5160 UA_fld_wll_plate", "multisim/parts/hex_num.py:858"]}
{"id": "C85", "title": "Numeric heat exchanger: accepted plate numbers leave every side a channel", "statement": "Whenever the constructor accepts a number of plates and passes, both sides have at least one channel (flows are divided by the number of channels).", "quantifier": "all integers for plates and passes", "why_tests_cant": "unbounded integers", "anchors": ["multisim/parts/hex_num.py:92-158"]}
{"id": "C86", "title": "Numeric heat exchanger: steady temperatures lie between the temperatures at the ports", "statement": "In a steady state with flow on at least one side, all temperatures of supply side, wall and demand side lie between the lowest and the highest temperature at the ports.", "quantifier": "every geometry, number of grid points, flow, direction and port temperatures", "why_tests_cant": "quantifies over all steady states of any size; maximum principle", "anchors": ["multisim/precomp_funs.py:2593-2816 hexnum_diff"]}
{"id": "C87", "title": "Numeric heat exchanger: a port conducts to its own cell", "statement": "The conductance between a port and the exchanger is made of the conductivity at the port and of the conductivity of the cell the port is attached to.", "quantifier": "every port, geometry, number of grid points and temperature", "why_tests_cant": "flat indices into arrays of different width; unchecked in compiled code", "anchors": ["multisim/precomp_funs.py:250-297 _process_ports_collapsed", "multisim/parts/hex_num.py:214", "multisim/parts/hex_num.py:277-286"]}
{"id": "C88", "title": "Numeric heat exchanger: a step that passes the stability check creates no new extremes", "statement": "If a time step passes the von Neumann check, an explicit step leaves all temperatures of the exchanger between the lowest and the highest temperature it sees.", "quantifier": "every geometry, state and step length", "why_tests_cant": "real-valued quantification over states and steps", "anchors": ["multisim/precomp_funs.py:761-889 _vonNeumann_stability_invar_hexnum", "multisim/precomp_funs.py:2747-2816 hexnum_diff"]}
{"id": "C89", "title": "A PID controller computes the PID law", "statement": "As long as no limit is reached, after every history of calls the control value is kp times the error, plus ki times the sum of step length times error, plus kd times the last change of the error per time, in continuous and discrete time.", "quantifier": "every history of errors and step lengths, all coefficients", "why_tests_cant": "unbounded histories; the discrete time controller sums increments", "anchors": ["multisim/parts/controllers.py:375-494 PID.run_controller", "multisim/controls.py:841-907 Controls.ctrl"]}
{"id": "C90", "title": "A simulation runs only on a completely set-up environment", "statement": "start_sim simulates only if set_timeframe, set_solver and set_disksaving were accepted, a numerically solved part was added and initialize_sim has built the environment including its flow net.", "quantifier": "every sequence of calls of the set-up methods in any order with any arguments, also continued after exceptions", "why_tests_cant": "all orders and repetitions of calls; states left behind by refused calls", "anchors": ["multisim/simenv.py:593-689 set_solver", "multisim/simenv.py:4546-4619 _build_simenv", "multisim/simenv.py:4804-4845 initialize_sim", "multisim/simenv.py:5032-5072 start_sim"]}
{"id": "C91", "title": "The step mode asked for is the step mode simulated", "statement": "If set_timeframe, set_solver and initialize_sim were accepted, the simulation runs with adaptive steps if adaptive steps were asked for and with constant steps otherwise.", "quantifier": "every sequence of set-up calls", "why_tests_cant": "depends on the order of calls and on which method is called with which number of arguments", "anchors": ["multisim/simenv.py:338-453 set_timeframe", "multisim/simenv.py:640-662 set_solver", "multisim/simenv.py:3862-3921 _heun, _heun_adaptive", "multisim/simenv.py:5067-5072 start_sim"]}
{"id": "C92", "title": "Results are dated with the start of the time series", "statement": "A simulation with time series boundary conditions dates its results with the first time stamp of the series; a date is only required if results are saved.", "quantifier": "every sequence of set-up calls, all dates", "why_tests_cant": "all orders of calls and repeated calls", "anchors": ["multisim/simenv.py:511-530 set_disksaving", "multisim/simenv.py:1402-1470 assign_boundary_cond", "multisim/simenv.py:5044-5052 start_sim"]}
{"id": "C93", "title": "A refused call of set_disksaving does not cost the results", "statement": "A simulation that runs keeps its results: they stay in memory or are written to the store that was accepted.", "quantifier": "every sequence of set-up calls, also after refused calls", "why_tests_cant": "the failure shows only at the end of a simulation", "anchors": ["multisim/simenv.py:511-591 set_disksaving", "multisim/simenv.py:4871-4890 _finalize_sim"]}
{"id": "C94", "title": "Invalid values stop the simulation", "statement": "If a temperature of a part becomes NaN, the simulation stops and says so.", "quantifier": "all states of all parts, all numbers of steps stored before", "why_tests_cant": "NaN states are not reached in tests; the check depends on the number of stored steps", "anchors": ["multisim/simenv.py:5103-5127 start_sim"]}
{"id": "C95", "title": "A reset environment repeats the simulation over the whole time frame", "statement": "After a run, initialize_sim(build_simenv=False, reset_simenv=True) and start_sim simulate the time frame given by the user again.", "quantifier": "every end of the first run, all step sequences of the second run", "why_tests_cant": "a stop caused by invalid values changes the stored time frame", "anchors": ["multisim/simenv.py:5122-5126 start_sim", "multisim/simenv.py:4779-4802 _reset_simenv"]}
{"id": "C96", "title": "A plant in thermal equilibrium stays in equilibrium", "statement": "If all parts, ports and the ambient have the same temperature and nothing is heated, the solver returns exactly this temperature for every part, with error estimate zero, whatever pumps, valves and materials are.", "quantifier": "all mass flows, materials, geometries, heat transfer coefficients, numbers of parts, step lengths and rejected attempts", "why_tests_cant": "all combinations of parts and flows; a wrong neighbour index or an unbalanced mass flow heats the plant only in some of them", "anchors": ["multisim/simenv.py:3862-4177 _heun_adaptive", "multisim/precomp_funs.py:1031-1236 pipe1D_diff", "multisim/precomp_funs.py:1872-2995 heatedpipe1D_diff, tes_diff, chp_core_diff, hexnum_diff"]}
{"id": "C97", "title": "The topology analysis ends and its result can be evaluated in one pass", "statement": "initialize_sim finishes the topology analysis of every plant, with a flow net or an exception. The flow net can be evaluated from top to bottom: after one pass all its equations hold, the flows of the pumps and the openings of the valves are untouched, and a second pass changes nothing.", "quantifier": "all plants (parts, names, connections), all orders in which Python iterates over the set of open parts, all values of the flows before", "why_tests_cant": "the recursion revisits parts in loops of the net; the order of the set of parts changes from process to process", "anchors": ["multisim/simenv.py:2186-2563 _get_topology, _recursive_topology", "multisim/simenv.py:2620-2708 _update_FlowNet", "multisim/parts/*.py _get_flow_routine"]}
{"id": "C98", "title": "An accepted plant determines every mass flow", "statement": "If the topology analysis accepts a plant, then the mass flow at every port follows from the flows of the pumps and the openings of the valves.", "quantifier": "all plants, all orders of the set of open parts, all flows and openings", "why_tests_cant": "all topologies; a port that keeps its old value is not visible in a test that starts with zero flows", "anchors": ["multisim/simenv.py:2186-2563 _get_topology, _recursive_topology", "multisim/parts/tes.py:814-946 _get_flow_routine"]}
{"id": "C99", "title": "Both sides of a connection carry the same mass flow", "statement": "In an accepted plant, for all flows of the pumps and all openings of the valves, the mass flow that leaves a part through a port is the mass flow that enters the part connected to that port, and the flows into every part without storage add up to zero.", "quantifier": "all plants, all orders of the set of open parts, all flows and openings", "why_tests_cant": "all topologies; where a loop is closed the two sides are calculated independently", "anchors": ["multisim/simenv.py:2186-2563 _get_topology, _recursive_topology", "multisim/all_parts.py, multisim/parts/*.py _get_flow_routine", "multisim/precomp_funs.py _dm_pass_on and its relatives"]}
{"id": "C100", "title": "Names of parts do not matter", "statement": "Whether a plant is accepted and which mass flows result does not depend on the names the user gives to the parts.", "quantifier": "all plants, all names", "why_tests_cant": "names used in tests are harmless", "anchors": ["multisim/simenv.py:2186-2563 _recursive_topology, search for the flow channel in part;port"]}
{"id": "C101", "title": "The analysis of the topology is reproducible", "statement": "Whether a plant is accepted does not depend on the order in which Python iterates over the set of open parts, which changes from process to process.", "quantifier": "all plants, all orders of iteration", "why_tests_cant": "a test sees the orders of a few processes", "anchors": ["multisim/simenv.py:2186-2300 _get_topology"]}
{"id": "C102", "title": "An accepted step is a step of Heun's method for the whole plant", "statement": "The temperatures of all parts after an accepted step are those of Heun's method applied to the differential equation of the whole plant, in which connectors, valves and pumps hand on the current temperatures.", "quantifier": "all plants, states, step lengths", "why_tests_cant": "the order of updates inside a step shows only as a loss of accuracy", "anchors": ["multisim/simenv.py:3966-4123 _heun_adaptive", "multisim/precomp_funs.py solve_connector_3w, solve_mix, solve_pump"]}
{"id": "C103", "title": "A step keeps what the differential equation keeps", "statement": "Every weighted sum of temperatures that the differential equation of the plant conserves, such as the energy of a closed adiabatic circuit with constant heat capacities, is conserved by every step.", "quantifier": "all plants, states, step lengths, weights", "why_tests_cant": "small drifts per step are hidden by tolerances", "anchors": ["multisim/simenv.py:3966-4123 _heun_adaptive", "multisim/precomp_funs.py solve_pump"]}
{"id": "C104", "title": "Outlier removal by standard deviation removes far values and only few", "statement": "remove_outliers_std replaces a value by NaN exactly if it is far from the others; at most one value in nine is removed with the default of three standard deviations, and the decision does not depend on the unit of the data.", "quantifier": "all series of all lengths, all thresholds", "why_tests_cant": "a test has one series; the effect of one far value on mean and standard deviation depends on the length of the series", "anchors": ["multisim/utility_functions.py:867-906 remove_outliers_std"]}
{"id": "C105", "title": "Median based outlier removal removes only outliers", "statement": "remove_outliers_mad removes values far from the median: at most half of the values, never a value nearer to the median than one that is kept, never one of the bulk of the data, independent of the unit.", "quantifier": "all series, all thresholds", "why_tests_cant": "depends on ties and on the shape of the data", "anchors": ["multisim/utility_functions.py:1205-1267 remove_outliers_mad"]}
{"id": "C106", "title": "Buoyancy mixes where the lower water is lighter", "statement": "In a storage, the conductivity between two layers is raised by buoyancy exactly where the water of the lower layer is lighter than that of the upper one; elsewhere heat is conducted as in water at rest.", "quantifier": "all numbers of layers, all temperatures, diameters", "why_tests_cant": "tests use a few temperature profiles, mostly of warm water", "anchors": ["multisim/precomp_funs.py:542-589 buoyancy_byNusselt"]}
{"id": "C107", "title": "A stronger inversion is mixed at least as strongly", "statement": "If the upper of two layers is made colder while the lower, warmer one keeps its temperature, the conductivity between them does not fall.", "quantifier": "all pairs of temperatures, all diameters", "why_tests_cant": "a drop at one point of a curve is found only if tests hit both of its sides", "anchors": ["multisim/precomp_funs.py:542-589 buoyancy_byNusselt"]}
{"id": "C108", "title": "A simulation creates no new temperature extremes", "statement": "In a plant without heat sources, no temperature ever leaves the range spanned by the initial temperatures, the ambient and the boundary conditions, whatever step lengths the solver tries, rejects and accepts.", "quantifier": "all plants, initial states, sequences of rejected and accepted steps", "why_tests_cant": "overshoots appear only for certain combinations of flows and step lengths", "anchors": ["multisim/simenv.py:3966-4123 _heun_adaptive", "multisim/precomp_funs.py pipe1D_diff, tes_diff, _vonNeumann_stability_var, _vonNeumann_stability_invar"]}
{"id": "C109", "title": "Heat conducted through a connection leaves one part and enters another", "statement": "The heat all parts at a connection receive by conduction adds up to zero: directly connected parts, and parts with a pump, connector or valve between them, only exchange heat.", "quantifier": "all plants, all sizes and materials of parts, all temperatures", "why_tests_cant": "the conductance of each side is calculated separately from values collected over the plant; losses are small per step", "anchors": ["multisim/simenv.py:1713-1895 _get_port_connections", "multisim/simenv.py:2565-2618 _calc_UAwll_port", "multisim/precomp_funs.py:283-291, 3274-3347, 3585-3651"]}
{"id": "C110", "title": "Conductances of connections do not depend on the order of set-up calls", "statement": "Which conductance two connected parts have depends neither on the order in which the parts were added nor on how often the environment has been initialised.", "quantifier": "all plants, all orders, all numbers of initialisations", "why_tests_cant": "tests build a plant in one order and initialise it once", "anchors": ["multisim/simenv.py:1713-1895 _get_port_connections", "multisim/simenv.py:4621-4630 _initialize_arrays"]}
{"id": "C111", "title": "The energy balance of a plant closes", "statement": "The heat content of a closed plant changes only by what it exchanges with the ambient and by its heat sources: at every moment by the sum of these heat flows, and in every accepted step not at all if there are none.", "quantifier": "all closed plants, flows, temperatures, step lengths", "why_tests_cant": "sums over whole plants; small leaks per connection and step are within tolerances", "anchors": ["multisim/simenv.py:1713-1895 _get_port_connections", "multisim/simenv.py:3966-4123 _heun_adaptive", "multisim/precomp_funs.py pipe1D_diff, tes_diff, heatedpipe1D_diff"]}
{"id": "C112", "title": "Two simulations of a plant do not drift apart", "statement": "If two simulations of a plant without heat sources start with temperatures that differ by at most b everywhere, they differ by at most b at all later times; and a plant that starts hotter everywhere stays hotter.", "quantifier": "all plants, all pairs of initial states, all numbers of steps", "why_tests_cant": "a statement about pairs of runs; tests look at single runs", "anchors": ["multisim/simenv.py:3966-4123 _heun_adaptive", "multisim/precomp_funs.py pipe1D_diff, tes_diff, heatedpipe1D_diff"]}
{"id": "C113", "title": "A meter shows the flow through the cell it is attached to", "statement": "A mass flow, volume flow or heat meter attached to a cell of a part shows the mass flow through this cell.", "quantifier": "all kinds of parts, all cells, all flows", "why_tests_cant": "tests attach meters to few cells of few kinds of parts", "anchors": ["multisim/simenv.py:3378-3392, 5765-5812, 4686-4712", "/repo/multisim/_utility/meters.py:117-127, 260-274, 300-316", "multisim/precomp_funs.py:115, 202, 242, 2992, 3648"]}
{"id": "C114", "title": "Resampling keeps totals", "statement": "Resampled results, meter columns and profiles have the same total (energy from power, mass from flow) as the data up to every point of the new grid, contain no gaps and no values outside the range of the data, and counters do not run backwards and end with their total.", "quantifier": "all series, all sampling times, all new periods", "why_tests_cant": "tests use evenly sampled data that fit the new grid", "anchors": ["multisim/simenv.py:5424-5530 _compress_store", "/repo/multisim/_utility/meters.py:340-345", "multisim/parts/controllers.py:1471-1580 _process_profiles", "multisim/utility_functions.py:415-448 process_unevenly_spaced_timeseries"]}
{"id": "C115", "title": "Ready-made modules choose heat exchangers that work", "statement": "For every building the numbers of plates that a ready-made consumer module calculates are accepted by the heat exchangers and give each side at least one channel.", "quantifier": "all living areas, mean flows and numbers of passes", "why_tests_cant": "tests use the reference building; the search for a number of plates is a loop without bound", "anchors": ["/repo/multisim/parts/part_modules/consumers.py:42-72, 639-660", "multisim/parts/hex_num.py channels"]}
{"id": "C116", "title": "Scaled pipes are pipes of the wanted kind", "statement": "A pipe scaled by a factor has the inner cross section of its reference pipe times the factor, the wall of a pipe of its type, diameters, thickness and cross sections that fit together; with factor one it is the reference pipe; and it does not depend on which other pipes are scaled.", "quantifier": "all tables of pipes, interpolations, parts and factors", "why_tests_cant": "depends on a table and a spline; errors of walls show only in heat losses", "anchors": ["multisim/utility_functions.py:451-538 interp_pipe_specs, adjust_pipes"]}
{"id": "C117", "title": "Ready-made modules fit into every plant", "statement": "A plant in which every port is connected except the places for ready-made modules becomes a plant that can be built when these modules are added, whichever modules and however many; and a module has the controllers that its mode of operation needs.", "quantifier": "all plants, all lists of modules, numbers of ports and modes of operation", "why_tests_cant": "plants with several modules are never tested; each new combination has new names and connections", "anchors": ["/repo/multisim/parts/part_modules/consumers.py", "/repo/multisim/parts/part_modules/suppliers.py", "multisim/simenv.py add_part, connect_ports, add_open_port, add_control"]}
{"id": "C118", "title": "Modules do not get in the way of each other", "statement": "Modules of different kinds, or of one kind with different segment names, can be added to one environment without conflicts of the names of parts, open ports and controllers.", "quantifier": "all lists of modules, all segment names", "why_tests_cant": "needs names of all pairs of modules and all segment names", "anchors": ["/repo/multisim/parts/part_modules/consumers.py", "/repo/multisim/parts/part_modules/suppliers.py", "multisim/simenv.py add_part, add_open_port, add_control"]}
{"id": "C119", "title": "Equal arguments give equal modules", "statement": "Calling a ready-made module twice with the same arguments gives two equal plants; arguments are not changed.", "quantifier": "all arguments, all numbers of calls", "why_tests_cant": "tests call each module once per argument dictionary", "anchors": ["/repo/multisim/parts/part_modules/suppliers.py:115-130", "/repo/multisim/parts/part_modules/chp_with_fluegas_hex.py:90-100"]}
{"id": "C120", "title": "The cells of a part make up the part", "statement": "Whatever the number of grid points, the cells of a pipe or storage that was accepted together have the volume, the wall (heat capacity, conduction along and across), the surfaces and the heat loss of a cylinder with the given size; arguments for which this is impossible are rejected.", "quantifier": "all sizes, all numbers of grid points, all insulations and coefficients", "why_tests_cant": "relations between real numbers for all sizes and grids; tests use one grid", "anchors": ["/repo/multisim/parts/pipe.py:70-105, 335-415", "/repo/multisim/parts/tes.py:124-187, 408-475", "multisim/precomp_funs.py:4960-4965"]}
{"id": "C121", "title": "The power of a heater arrives in its cells", "statement": "Any consecutive cells of a heated pipe can be chosen for heating; all of them get the same share, no other cell gets anything, and the shares add up to the power of the heater.", "quantifier": "all numbers of cells, all choices, all powers and heat capacities", "why_tests_cant": "all choices of cells and grids", "anchors": ["/repo/multisim/parts/heated_pipe.py:73-160", "multisim/precomp_funs.py:2065"]}
{"id": "C122", "title": "Ports have the sizes that were given for them", "statement": "Specifications of ports, given for all ports at once or for each one by nominal diameter or by areas, are accepted if and only if they cover exactly the ports of the part; each port then has exactly the given size.", "quantifier": "all tables, all port names, all dictionaries", "why_tests_cant": "all dictionaries and tables, the order of entries included", "anchors": ["multisim/simenv.py:3394-3674"]}
{"id": "C123", "title": "The geometry of a plate heat exchanger follows from its description", "statement": "Plates have the area of the rounded rectangle without ports, insulation enlarges the surface; the three ways to describe channels and plates (channel width, mass of a plate, volume of a channel) give the same exchanger if they describe the same one; every documented combination of arguments is accepted, impossible sizes are rejected.", "quantifier": "all sizes, all combinations of arguments", "why_tests_cant": "all sizes and the round trip between three descriptions; tests use one data sheet", "anchors": ["/repo/multisim/parts/heatexchanger.py:504-941", "/repo/multisim/parts/hex_num.py:649-1104"]}
{"id": "C124", "title": "Normalised errors do not depend on units", "statement": "A normalised error of a prediction (normalized_err, cv_rmse) is the same in every unit and on every scale of the data, and a worse prediction has a larger one.", "quantifier": "all series, all measures of error and divisors, all changes of unit", "why_tests_cant": "all series and units; tests check single values", "anchors": ["/repo/multisim/_utility/stat_error_measures.py:271-344"]}
{"id": "C125", "title": "More flow, better heat transfer in pipes", "statement": "At the same water temperature a larger flow through a pipe or storage always has a larger heat transfer coefficient to the wall (in the laminar range, in the turbulent range and across the transition), the direction of the flow does not matter, the coefficient is largest where the water enters, and the conductance to the ambient grows with the flow.", "quantifier": "all flows, all water temperatures between 0 and 100 degC, all diameters and positions", "why_tests_cant": "the correlations are joined at Re = 2300; whether there is a drop at the joint for some temperature and position cannot be found by sampling", "anchors": ["multisim/precomp_funs.py:4345-4424 pipe_alpha_i", "multisim/precomp_funs.py:4429-4512 pipe_alpha_i_wll_sep"]}
{"id": "C126", "title": "More flow, better heat transfer between plates", "statement": "In a plate heat exchanger (both kinds) the heat transfer coefficient is defined and positive, and it and the whole heat transfer value grow with the flow on either side.", "quantifier": "all flows, temperatures between 0 and 100 degC, geometries and Reynolds corrections", "why_tests_cant": "as C125: joint of two correlations, depends on geometry", "anchors": ["multisim/precomp_funs.py:4516-4683 phex_alpha_i_wll_sep(_discretized)", "multisim/precomp_funs.py:3425-3478 solve_platehex"]}
{"id": "C127", "title": "More flow through a plate heat exchanger transfers more heat", "statement": "With the same temperatures around it, a plate heat exchanger transfers at least as much heat when the supply flow or the demand flow is larger, and strictly more unless the demand water already reaches the supply temperature.", "quantifier": "all flows in either direction, temperatures, geometries", "why_tests_cant": "involves all flows and temperatures at once, through the correlations and the NTU formula", "anchors": ["multisim/precomp_funs.py:3358-3558 solve_platehex"]}
{"id": "C128", "title": "A hotter surface loses more heat", "statement": "At the same ambient temperature the heat which a surface (shell of a pipe or storage in either orientation, vertical plane, lid) gives to the air grows strictly with its temperature, whether it is hotter or colder than the air.", "quantifier": "all temperatures between -100 and 200 degC, all sizes, both orientations, both sides of a lid", "why_tests_cant": "viscosity and conductivity change with temperature and correlations are joined piecewise: a drop between two temperatures cannot be excluded by samples", "anchors": ["multisim/precomp_funs.py:4686-4757 cylinder_alpha_inf", "multisim/precomp_funs.py:4760-4906 plane_alpha_inf"]}
{"id": "C129", "title": "Smaller steps lead to the solution of the differential equation", "statement": "Whatever steps are taken, rejected and accepted, the temperatures at the end of a simulation are as close to the solution of the differential equation of the whole plant as a constant times the square of the longest step; the constant does not depend on the steps.", "quantifier": "all plants, all solutions, all sequences of steps and rejected attempts", "why_tests_cant": "a statement about all sequences of steps and the limit of short steps; a test compares single runs", "anchors": ["multisim/simenv.py:3966-4123 SimEnv._heun_adaptive"]}
{"id": "C130", "title": "A plant with heat losses approaches one steady state", "statement": "With constant flows and boundary values, a plant whose parts lose heat to the ambient has exactly one steady state; every simulation approaches it step by step whatever temperatures it starts with, and whichever steps are taken or rejected; the influence of the initial temperatures fades by a fixed factor per step.", "quantifier": "all plants, all initial temperatures, all sequences of steps below the stability limit and rejected attempts", "why_tests_cant": "a statement about the limit of long simulations from every start; a test sees one start and a finite time", "anchors": ["multisim/simenv.py:3966-4123 SimEnv._heun_adaptive", "multisim/precomp_funs.py:1031-1234", "multisim/precomp_funs.py:2095-2371"]}
{"id": "C131", "title": "A pipe has no preferred direction", "statement": "A pipe or storage seen from its other end (cells counted backwards, ports exchanged, flow reversed) has the same differential from the other end, the same heat losses and the same stability check; a plant in which one pipe is turned round gives the same simulation.", "quantifier": "all pipes, storages, temperatures, flows, plants and numbers of steps", "why_tests_cant": "a relation between pairs of plants for all states; a test compares single numbers of one pipe", "anchors": ["multisim/precomp_funs.py:1031-1234 pipe1D_diff", "multisim/precomp_funs.py:4345-4424 pipe_alpha_i", "multisim/precomp_funs.py:640-757", "multisim/precomp_funs.py:2095-2371", "multisim/simenv.py:3966-4123"]}
{"id": "C132", "title": "A pipe can be divided into two connected pipes", "statement": "A pipe of n1 + n2 cells and two connected pipes of n1 and n2 of these cells give the same simulation cell by cell, including the conduction through the joint and the heat losses.", "quantifier": "all pipes, divisions, temperatures, flows in either direction, plants and numbers of steps", "why_tests_cant": "a relation between pairs of plants for all states; the conductance of a joint is computed by other code than that between cells", "anchors": ["multisim/precomp_funs.py:1031-1234 pipe1D_diff", "multisim/parts/pipe.py:380-440", "multisim/simenv.py:1713-1895", "multisim/simenv.py:2565-2618", "multisim/precomp_funs.py:4345-4424 pipe_alpha_i"]}
{"id": "C133", "title": "Performance indicators measure the prediction", "statement": "ts_performance_indicators reports, for an observed and a predicted series, the error measures RMSE, MAE, MSD and their normalised forms, over all rows except (with exclude_zeros) those in which both values are zero; R squared is the coefficient of determination; the index does not matter.", "quantifier": "all series of all lengths, both settings of exclude_zeros", "why_tests_cant": "measures are computed by pandas on an aligned and filtered table; which rows are dropped and which divisor is used only shows for particular data", "anchors": ["multisim/utility_functions.py:2834-2922 fit_time_series", "multisim/utility_functions.py:2925-3026 ts_performance_indicators"]}
{"id": "C134", "title": "Plants without connection do not influence each other", "statement": "Two plants without any connection, simulated in one environment, get the temperatures which each of them gets when it is simulated alone.", "quantifier": "all pairs of plants, all initial states, all sequences of steps", "why_tests_cant": "a relation between runs of three environments for all plants; the influence is only in the choice of the step length", "anchors": ["multisim/simenv.py:3966-4150 SimEnv._heun_adaptive", "multisim/simenv.py:862-890", "multisim/precomp_funs.py:3733-3782 _heun_corrector_adapt"]}
{"id": "C135", "title": "Accepted steps keep the tolerance", "statement": "A step in which the error estimate of every cell is below its tolerance rtol * T + atol is accepted, and in every step accepted because of its error the error estimate of every cell is below its tolerance.", "quantifier": "all plants, all temperatures, all tolerances, all numbers of cells", "why_tests_cant": "the estimate is a mean over all cells of the plant; a test compares one plant of one size", "anchors": ["multisim/simenv.py:4124-4222 SimEnv._heun_adaptive", "multisim/simenv.py:862-890", "multisim/precomp_funs.py:3733-3782 _heun_corrector_adapt", "multisim/parts/hex_num.py:179-194"]}
{"id": "C136", "title": "The order in which parts are added does not matter", "statement": "Two environments with the same parts and connections, added in different orders, make the same simulation: same steps, same temperatures of each part.", "quantifier": "all plants, all orders, all initial states, all sequences of steps", "why_tests_cant": "a relation between two environments for all plants; the order only matters if several parts are unstable in one step", "anchors": ["multisim/simenv.py:862-900", "multisim/simenv.py:3966-4256 SimEnv._heun_adaptive", "multisim/precomp_funs.py:715-757"]}
{"id": "C137", "title": "The predictive controller plans in time", "statement": "The predictive controller plans once in every period opt_every, in the first control step of the period and with the rows of its profiles which belong to this period; profiles that pass the checks are long enough for every plan and every control step of a simulation.", "quantifier": "all time frames, periods, sequences of step lengths, profiles", "why_tests_cant": "the schedule is a list consumed step by step; it only drifts for long steps, late profiles or second simulations", "anchors": ["multisim/parts/controllers.py:899-906", "multisim/parts/controllers.py:1471-1580 _process_profiles", "multisim/parts/controllers.py:1801-1811", "multisim/parts/controllers.py:2016-2021", "multisim/parts/controllers.py:2062-2071", "multisim/parts/controllers.py:2102-2124 run_controller"]}
{"id": "C138", "title": "A controller senses the cell that was named", "statement": "The process variable of a controller is the temperature of the port or cell given to it: a port name means the cell of that port, a number from 0 means the cell counted from the top, a negative number the cell counted from the end; anything that the part does not have is refused.", "quantifier": "all parts, all sets of added ports, all temperatures, all arguments", "why_tests_cant": "ports are numbered by their flattened cells and can be added in any order at any position; a wrong cell has a plausible temperature", "anchors": ["multisim/controls.py:195-207", "multisim/controls.py:952-1106 Controls.__check_args", "multisim/parts/controllers.py:587-597", "multisim/parts/tes.py:629-812", "multisim/parts/pipe_with_valve.py:72-85", "multisim/parts/hex_num.py:277-294", "multisim/parts/hex_condensing_polynome.py:185-236"]}
{"id": "C139", "title": "Implicitly solved heat exchangers: no step is too long", "statement": "A numeric heat exchanger solved implicitly creates no new temperature extremes, whatever the step length: after a step every temperature lies between those before the step and those at the ports; its heat content changes by what the ports bring in, and the equation of the step has exactly one solution.", "quantifier": "all exchangers, numbers of cells, temperatures, flows in both directions, step lengths", "why_tests_cant": "the reason for implicit solving is stability for every step length; a test tries a few lengths, and the solver is an iteration whose failures go unnoticed", "anchors": ["multisim/precomp_funs.py:2996-3197 hexnum_diff_impl, hexnum_imp_root_diff", "multisim/simenv.py:4003-4016", "multisim/simenv.py:4051-4065", "multisim/parts/hex_num.py:387-430"]}
{"id": "C140", "title": "The chosen cells are saved", "statement": "With disk saving, the saved tables of a part contain the results of exactly the cells chosen with store_results, in the chosen order, and nothing is saved of a part that is not to be saved; a choice that cannot be saved is refused when it is made.", "quantifier": "every sequence of added parts, every choice (all, none, number, slice, list), every number of cells and tables", "why_tests_cant": "the choice is applied after the simulation to all tables of a part; tests look at few kinds of parts and choices", "anchors": ["multisim/simenv.py:716-762 add_part", "multisim/simenv.py:5423-5530 _compress_store", "multisim/simenv.py:5706-5709 _check_isadded"]}
{"id": "C141", "title": "Saved data are returned under their names", "statement": "return_stored_data returns every part with its own tables, the vectors of the simulation, and exactly the meters that were saved, each under its name.", "quantifier": "every plant, every set of meters, every order of the store", "why_tests_cant": "names are arbitrary strings that are taken apart again; tests use harmless names", "anchors": ["multisim/simenv.py:5619-5666 return_stored_data", "multisim/_utility/meters.py:347-362 _save_to_disk"]}
{"id": "C142", "title": "A time series is applied to what it was assigned to", "statement": "A time series accepted for an open port, an element of a variable of a part, or a set point is written to exactly that number in every step and changes nothing else; further series with the same stamps are accepted; a refused call has no effect.", "quantifier": "every plant, every number and order of series, every index of an element, all time stamps", "why_tests_cant": "targets are views made from slices whose meaning depends on the index; effects of refused calls and of other series show only in later calls", "anchors": ["multisim/simenv.py:1330-1558 assign_boundary_cond", "multisim/simenv.py:1560-1566 _initialize_dynamic_BC", "multisim/simenv.py:2717-2763 _update_dyn_BC"]}
{"id": "C143", "title": "An actuator without controller takes the given value", "statement": "An actuator for which a constant value or a time series is given instead of a controller has that value (mass flow, opening, modulation) in every step.", "quantifier": "every kind of actuator, every value and series, every flow in the plant", "why_tests_cant": "the value is stored in one of several arrays, of which only one is read; tests look at single kinds of actuators", "anchors": ["multisim/simenv.py:1127-1232 _initialize_actuator", "multisim/parts/pump.py:204-321 init_part", "multisim/parts/pipe_with_valve.py:166-192 init_part", "multisim/parts/mixingvalve.py:296-383 init_part"]}
{"id": "C144", "title": "Powers of heaters and CHP plants are recorded for every step", "statement": "After a run the recorded heating power of a heated pipe and the powers and states of a CHP plant have one value per step, the one used in that step, like the temperatures.", "quantifier": "every buffer size, every number of steps, with and without disk saving", "why_tests_cant": "needs runs longer than the buffers, which are sized for a hundred times the expected number of steps", "anchors": ["multisim/parts/heated_pipe.py:194-237", "multisim/parts/chp_plant.py:561-675", "multisim/simenv.py:5278-5422 _free_memory", "multisim/simenv.py:5668-5687 _crop_results"]}
{"id": "C145", "title": "Loading results returns the tables that were asked for", "statement": "load_sim_results returns every table of the file that was asked for, under the name of its part and its own name, with its contents, and nothing else; the vectors of the simulation are returned too.", "quantifier": "every file, every set of keys with or without leading slash", "why_tests_cant": "depends on all names in the file and on which groups it has", "anchors": ["multisim/utility_functions.py:46-101 load_sim_results"]}
{"id": "C146", "title": "A stratified storage stays stratified", "statement": "If no cell of a thermal energy storage is warmer than the cell above it and the water fed in fits into the layers, then no cell is warmer than the cell above it after a step of the solver that is short enough.", "quantifier": "every number of cells, every temperature profile, every material, every set of ports and flows, every step up to half of the stable one", "why_tests_cant": "depends on all temperatures, all port positions and flows together with the step size", "anchors": ["multisim/precomp_funs.py:2095-2371 tes_diff", "multisim/precomp_funs.py:542-589 buoyancy_byNusselt", "multisim/parts/tes.py"]}
{"id": "C147", "title": "A CHP plant is not started too often", "statement": "In any time a CHP plant is started at most once more than its minimum running time plus its minimum pause fit into that time; if it overheats, at most once more than the minimum pause fits into it.", "quantifier": "every sequence of requests, temperatures and step sizes, every number of steps", "why_tests_cant": "a statement about the whole history of requests and steps", "anchors": ["multisim/parts/chp_plant.py:675-774 CHPPlant.get_diff"]}
{"id": "C148", "title": "Removing outliers by a rolling median removes spikes and nothing else", "statement": "remove_outliers_roll removes values that stick out of their neighbourhood, however large they are, and keeps all values of a series without such values; the decision does not depend on the unit of the data.", "quantifier": "every length, every window, every limit, every position and size of a spike", "why_tests_cant": "the limit depends on all values and the medians at the ends are filled in", "anchors": ["multisim/utility_functions.py:909-976 remove_outliers_roll"]}
{"id": "C149", "title": "Heat losses do not depend on the number of grid points", "statement": "A pipe or storage at rest, filled with water of one temperature, loses the same heat to the ambient whichever number of grid points is chosen: cells divide the part, they do not change it.", "quantifier": "all sizes, materials, temperatures, numbers of grid points, histories of evaluations", "why_tests_cant": "every grid and every history of coefficients; the loss of one grid looks plausible, only the comparison of all grids shows the dependence", "anchors": ["multisim/precomp_funs.py:4270-4329", "multisim/precomp_funs.py:4686-4757", "multisim/precomp_funs.py:2200-2260", "/repo/multisim/parts/tes.py:494-511", "/repo/multisim/parts/pipe.py:423-430"]}
{"id": "C150", "title": "Centred rolling windows are centred", "statement": "rolling_centered computes each value from the values at most half of the window before and after it; with min_periods=0 no value is lost at the ends, with more required periods exactly those without enough values are.", "quantifier": "all lengths of series, all values, all windows (multiples of the spacing or not), all methods", "why_tests_cant": "window arithmetic differs between multiples of the spacing and other windows; a shift by half a sample does not show on noisy data", "anchors": ["multisim/utility_functions.py:983-1194 rolling_centered"]}
{"id": "C151", "title": "Packaging sorts results into one folder per simulation and loses none", "statement": "package_results moves the results of every finished simulation (report written, no temporary file) to a new folder named after that simulation, leaves the others where they are, never overwrites anything, and reports how many were packaged.", "quantifier": "all sets of files, names, features, logs and existing folders", "why_tests_cant": "all combinations of names; collisions and texts contained in each other appear only for certain numberings", "anchors": ["multisim/utility_functions.py:167-285 package_results"]}
{"id": "C152", "title": "The root finders return roots", "statement": "root_array_secant, root_array_newton and root_secant return a point at which the function is zero up to the tolerance, or tell the caller that they found none.", "quantifier": "all functions, all starting points, all tolerances, all numbers of passes", "why_tests_cant": "iterative methods on arbitrary functions; failures depend on where the root lies relative to the start", "anchors": ["multisim/precomp_funs.py:6104-6156 root_array_secant", "multisim/precomp_funs.py:6160-6206 root_array_newton", "multisim/precomp_funs.py:6308-6366 root_secant"]}
{"id": "C153", "title": "Water cools down along a pipe", "statement": "When the temperatures of a pipe no longer change and its inlet is warmer than the ambient, the water is colder after every cell than before it, never colder than the ambient, and, all else equal, less flow does not mean a warmer outlet; this holds in both directions of flow.", "quantifier": "all numbers of cells, all geometries, all conductances to the ambient, all flows, both directions, all materials whose enthalpy grows with temperature, in particular water", "why_tests_cant": "steady states are reached only after infinitely many steps; the monotone profile is a statement about all cells at once and about conduction against the flow", "anchors": ["multisim/precomp_funs.py:1094-1240 pipe1D_diff", "multisim/precomp_funs.py:283-291 _process_ports_collapsed"]}
{"id": "C154", "title": "Every port has its own place among the mass flows of its part", "statement": "Each port of a part has a cell in the array of mass flows of the part; two ports share a cell only if the same flow passes both of them (ports of a pipe or pump, ports of one side of a heat exchanger).", "quantifier": "every part, every list of added ports with their names and positions", "why_tests_cant": "the cell is found from the size of an array, which depends on how the part was built; a shared or missing cell shows only in the flows of a whole plant", "anchors": ["multisim/simenv.py:2890-3234 _get_arr_idx", "multisim/simenv.py:902-1084 _add_ports", "multisim/parts/pipe_branched.py:45-109 PipeBranched.__init__", "multisim/parts/tes.py:629-812 Tes.__add_ports"]}
{"id": "C155", "title": "A Reynolds correction fitted to heat transfer coefficients reproduces them", "statement": "find_Reynolds_correction determines the correction with which the heat transfer coefficient at each given operating point (temperatures, power) is the given one; there is exactly one such correction, and it can be used afterwards.", "quantifier": "every geometry, every list of operating points of liquid water", "why_tests_cant": "a numeric minimiser is started at one point and its result is printed, not checked; whether a zero of the deviation exists, is unique and is usable depends on the shape of the function", "anchors": ["multisim/parts/heatexchanger.py:943-1021 HexBase.find_Reynolds_correction", "multisim/parts/hex_num.py:1106-1189 HexNum.find_reynolds_correction", "multisim/precomp_funs.py:4509-4605 phex_alpha_i_wll_sep"]}
{"id": "C156", "title": "The regression of the condensing heat exchanger is evaluated as it was fitted", "statement": "The outlet temperatures which the compiled regression predicts are those of the fitted pipeline: intercept plus coefficients times principal components of all monomials of the inputs up to the degree, each monomial once; the dummy entries of the index table are never read.", "quantifier": "every number of inputs, degree and setting of the polynomial features; every fit of matching size; every input", "why_tests_cant": "the number of monomials grows with the degree; a wrong or repeated column of the padded index table changes predictions only slightly and only for some fits", "anchors": ["multisim/precomp_funs.py:6030-6097 make_poly_transf_combs_for_nb, transform_to_poly_nb, transform_pca_nb, poly_tranfs_pred", "multisim/precomp_funs.py:2820-2992 condensing_hex_solve", "multisim/parts/hex_condensing_polynome.py:398-412 HEXCondPoly.init_part"]}
{"id": "C157", "title": "A simulation is compared with measured data at the same times", "statement": "When the performance indicators of a prediction are computed with freq and how, both series are brought to the times of the common grid: with forward_fill the last reading up to the time, with backward_fill the first one from it on, with interpolate the mean of the readings of the interval or a value in the range of the data; every row compares two values of the same time and the indicators are the error measures over these rows.", "quantifier": "all uneven or even series of readings, all periods, all ways of filling", "why_tests_cant": "a comparison always returns plausible numbers; which rows are compared depends on the relation of all times of both series to the grid", "anchors": ["multisim/utility_functions.py:415-448 process_unevenly_spaced_timeseries", "multisim/utility_functions.py:2817-2922 is_evenly_spaced, fit_time_series", "multisim/utility_functions.py:2925-3026 ts_performance_indicators"]}
{"id": "C158", "title": "Larger CHP plants have higher maintenance cost", "statement": "The maintenance cost per hour which the predictive controller infers from the size of a CHP plant is positive, follows the price list in the code, rises with the power of the plant and is proportional to the discount; so is the cost per hour of full operation from the cost per kWh.", "quantifier": "all plant sizes, all discounts, every result of the curve fit", "why_tests_cant": "the cost is read off a cubic fitted to an interpolated table; its behaviour outside the table is not visible in any entry", "anchors": ["multisim/parts/controllers.py:2885-2915 ModelPredCHP.infer_instandh", "multisim/parts/controllers.py:2703-2759 ModelPredCHP._instandh_chp_nonflat", "multisim/parts/controllers.py:1195-1199"]}
{"id": "C159", "title": "The report tells whether and how the simulation was solved", "statement": "The report written at the end of a simulation says that the simulation succeeded exactly if it was not stopped for invalid values or instability; it gives the number of steps made, how many of them were normal, limited to the maximum or minimum step or governed by roundoff, how many attempts were repeated, the simulated time, and the mean step.", "quantifier": "all simulations of the adaptive solver (the only one that runs), with any attempts and errors; with and without saving to disk; every buffer size; stopped after any number of steps", "why_tests_cant": "the numbers come from arrays that are flushed, appended and cropped block by block; a run long enough to fill a block and then fail is not tested", "anchors": ["multisim/simenv.py:5532-5617 SimEnv._write_report", "multisim/simenv.py:4876-4951 SimEnv._finalize_sim", "multisim/simenv.py:5103-5127", "multisim/simenv.py:4146-4256 SimEnv._heun_adaptive", "multisim/simenv.py:5278-5422 SimEnv._free_memory"]}
{"id": "C160", "title": "A controller with an integral term leaves no steady deviation", "statement": "As long as the process value deviates from the setpoint to one side, a controller with an integral term goes on moving its control value until the saturation is reached. A plant at rest with an unsaturated control value therefore has no deviation.", "quantifier": "all coefficients, saturations and anti-windup limits, all states, all sequences of calls with any steps and deviations, continuous and discrete time, inverted or not", "why_tests_cant": "tests run a controller against one plant for a while; that no plant whatever can hold it at rest beside the setpoint is a statement about all sequences of calls", "anchors": ["multisim/parts/controllers.py:367-494 PID.run_controller", "multisim/parts/controllers.py:342-364 PID.__init__", "multisim/controls.py:841-926 Controls.ctrl"]}
{"id": "C161", "title": "Refining the grid of a pipe leads to the exact temperatures", "statement": "When nothing changes any more, the temperature of water of constant properties behind each cell of a pipe is not below the exact exponential cooling curve and exceeds it, relative to the temperature difference at the inlet, by at most (U/W)^2/n plus 2 G U/W^2, where U is the conductance to the ambient, W the heat capacity flow, G the conductance along the pipe and n the number of cells. So the outlet temperature tends to the exact one as the grid is refined, up to conduction along the pipe.", "quantifier": "all pipes, numbers of cells, flows, conductances and temperatures, with conduction between cells and through the inlet; inlet connected to a pipe of the same kind", "why_tests_cant": "the error of a grid can be measured on examples but not bounded by them; the bound holds for every number of cells", "anchors": ["multisim/precomp_funs.py:1094-1240 pipe1D_diff", "multisim/precomp_funs.py:283-291 _process_ports_collapsed", "multisim/precomp_funs.py:506-515 UA_plate_tb"]}
{"id": "C162", "title": "A two-position controller keeps the process value in its band", "statement": "With a plant that rises in one position of the actuator and falls in the other, a two-position controller brings the process value into its hysteresis band and keeps it there up to the change of one step, and between two switchings the process value crosses the whole band.", "quantifier": "all plants (any process value that moves the right way by at most D per call), all setpoints, hysteresis widths of both signs, saturation, off values and actuator limits, all numbers of calls", "why_tests_cant": "tests run one plant for a while; that no plant can leave the band, and that no short cycling can occur, is a statement about all plants and unbounded runs", "anchors": ["multisim/parts/controllers.py:497-552 BangBang", "multisim/controls.py:841-926 Controls.ctrl"]}
{"id": "C163", "title": "Properties of air are physical", "statement": "Dry air gets lighter, conducts heat better and gets more viscous with the temperature, and its density is that of an ideal gas. The saturation pressure and the water content of saturated air are positive, rise with the temperature and belong to each other.", "quantifier": "all temperatures of the documented ranges (real numbers)", "why_tests_cant": "tests sample temperatures; a polynomial of degree ten can turn between any two samples", "anchors": ["multisim/precomp_funs.py:4160-4210 get_rho_dryair, get_lam_dryair, get_ny_dryair", "multisim/precomp_funs.py:4216-4233 humid_air_saturation_pressure", "multisim/precomp_funs.py:4239-4266 humid_air_sat_water_mass"]}
{"id": "C164", "title": "Properties of water fit together", "statement": "Between 0 and 100 degC warmer water is lighter (above its density maximum), conducts heat better, is less viscous and has a smaller Prandtl number; the Prandtl number belongs to viscosity, density, heat capacity and conductivity, and the expansion coefficient belongs to the density.", "quantifier": "all temperatures between 0 and 100 degC (real numbers)", "why_tests_cant": "tests sample temperatures; the functions are independent fits and can turn or drift apart between any two samples", "anchors": ["multisim/precomp_funs.py:3955-4143 rho_water, lambda_water, cp_water, ny_water, Pr_water_return, beta_water_return"]}
{"id": "C165", "title": "A two-sensor controller charges a storage completely and without short cycles", "statement": "At a stratified storage a two-sensor controller is on whenever the upper sensor is below the activation value, stays on until the lower sensor exceeds the setpoint, and between two switchings the temperatures cross the distance between activation value and setpoint.", "quantifier": "all stratified storages (any temperatures that change by at most D per call), all activation values, setpoints, saturations, off values, all numbers of calls", "why_tests_cant": "tests run one storage for a while; that charging is never broken off and that no short cycling can occur is a statement about all storages and unbounded runs", "anchors": ["multisim/parts/controllers.py:638-658 TwoSensors.run_controller", "multisim/controls.py:841-926 Controls.ctrl"]}
{"id": "C166", "title": "Loading by name returns what was asked for", "statement": "load_results_by_name returns, under the number of each simulation asked for, the results of that simulation of the set with the given identifier; database_import returns the databases asked for under their names.", "quantifier": "all folder contents, identifiers, lists of numbers, lists of databases", "why_tests_cant": "tests use one folder with well-behaved names; what happens beside other sets, other files and other operating systems depends on all folder contents", "anchors": ["multisim/utility_functions.py:104-149 load_results_by_name", "multisim/utility_functions.py:541-586 database_import"]}
{"id": "C167", "title": "An insulated storage that is not used evens out its temperatures and keeps its energy", "statement": "A storage without flow and without heat transfer to its surroundings keeps its energy and its extreme temperatures stay bounds; with every step the cells come closer to the mean temperature, which they approach in the long run, whatever the rest of the plant does and however the conductivity depends on the temperature.", "quantifier": "all numbers of cells >= 2, initial temperatures, conductances (also depending on temperatures, e.g. buoyancy), plants around the storage, step lengths, rejected attempts, numbers of steps", "why_tests_cant": "long-term behaviour over unboundedly many steps of varying length", "anchors": ["multisim/precomp_funs.py:2095-2371 tes_diff", "multisim/precomp_funs.py:491-515 UA_plate_tb", "multisim/simenv.py:3966-4123 Heun"]}
{"id": "C168", "title": "Labels and numbers in plots and tables say what they stand for", "statement": "si_axlabel produces one formula that names all quantities with their units in the chosen style, with percent signs escaped exactly once, and refuses dollar signs and a different number of labels and units; sinum_frmt prints every number with an error of at most half a percent and keeps the order of numbers.", "quantifier": "all labels, units, styles, spacings, numbers, ways of rounding ties", "why_tests_cant": "all strings and all real numbers; tests look at single labels", "anchors": ["multisim/_utility/plotting.py:525-657 si_axlabel", "multisim/_utility/plotting.py:660-686 sinum_frmt"]}
{"id": "C169", "title": "A change of the supply temperature arrives at the end of a pipe after its transit time", "statement": "When the source in front of an insulated pipe changes to another constant temperature, the temperature at the outlet approaches it monotonically without overshoot, and the change arrives on average after the heat capacity of the pipe divided by the heat capacity flow, up to one step length, shortened by no more than conduction through the inlet can do; the number of cells and the steps taken do not matter.", "quantifier": "all numbers of cells, temperatures before and after, conductances between cells (also depending on temperatures), plants around the pipe, step lengths below the stability limit, rejected attempts, infinitely many steps", "why_tests_cant": "the arrival time is a sum over an unbounded simulation; tests check single curves", "anchors": ["multisim/precomp_funs.py:1205-1224 dT_cond", "multisim/precomp_funs.py:1031-1235 pipe1D_diff", "multisim/simenv.py:3966-4123 Heun"]}
{"id": "C170", "title": "A storage is charged and discharged in the time in which its contents are exchanged", "statement": "When a storage of uniform temperature is fed through the port at one end with water of another constant temperature and drained at the other end, the temperature at the drain approaches the new one monotonically without overshoot, and the change arrives there on average after the heat capacity of the storage divided by the heat capacity flow, up to one step length, shortened by no more than conduction through the inlet can do; other ports that are shut, the number of cells, buoyancy and the steps taken do not matter.", "quantifier": "all numbers of cells >= 2, both directions of flow, temperatures before and after, conductances between cells (also depending on temperatures, e.g. buoyancy), ports that are shut, plants around the storage, step lengths below the stability limit, rejected attempts, infinitely many steps", "why_tests_cant": "the arrival time is a sum over an unbounded simulation; tests check single curves", "anchors": ["multisim/precomp_funs.py:2095-2371 tes_diff", "multisim/precomp_funs.py:159-205 _process_flow_var", "multisim/simenv.py:3966-4123 Heun"]}
{"id": "C171", "title": "Second law: no step of the solver lowers the entropy of a part and its surroundings", "statement": "In a step of the solver what the cells of a storage or pipe have of any convex function of their temperatures (minus the logarithm of the absolute temperature gives minus the entropy, squares give the unevenness) grows at most by what enters with the water, through the ports and from the ambient. So over a whole simulation the content grows at most by the largest supply times the duration, and for a storage whose ports are shut the entropy of storage and surroundings together never decreases: heat never flows from cold to warm, whatever the buoyancy model, the insulation and the rest of the plant do.", "quantifier": "all convex functions, numbers of cells >= 2, conductances (also depending on temperatures), flows, port and ambient temperatures, plants around the part, step lengths below the stability limit, rejected attempts, numbers of steps", "why_tests_cant": "an inequality for all convex functions and all temperature profiles; tests check energy balances of single profiles, which say nothing about the direction of heat flow", "anchors": ["multisim/precomp_funs.py:1195-1240 dT_cond, dT_adv", "multisim/precomp_funs.py:2095-2371 tes_diff", "multisim/precomp_funs.py:159-205 _process_flow_var", "multisim/simenv.py:3966-4123 Heun"]}
{"id": "C172", "title": "Second law for plants: no simulation lowers the entropy of a plant and its surroundings", "statement": "A closed plant of pipes and storages without heat sources: whatever its pumps and controllers do to the flows from step to step and whichever attempts are rejected, all temperatures stay in the range in which they started, what all cells together have of any convex function of their temperatures grows in a step at most by what comes from the ambient, and the entropy of the plant and its surroundings together never decreases. So what leaves one part through a connection never arrives as more than was given.", "quantifier": "all plants of directly connected parts (for a single moment also with pumps between them), all flows and conductances in each step, all convex functions, step lengths below the stability limit, rejected attempts, numbers of steps", "why_tests_cant": "quantifies over plants, profiles, convex functions and unbounded simulations; tests check single plants and only the first law", "anchors": ["multisim/precomp_funs.py:1195-1240 dT_cond, dT_adv", "multisim/simenv.py:1746-1895 set-up of connections", "multisim/simenv.py:3966-4123 Heun", "multisim/precomp_funs.py:159-205 _process_flow_var"]}
{"id": "C173", "title": "A step accepted by the stability check moves at most the content of a cell", "statement": "A step passes the stability check of a part exactly if in it no flow moves more than the mass of a cell and the diffusion numbers of all faces between cells, of all ports and of all cells to the ambient are at most one half. So no accepted step empties a cell more than once.", "quantifier": "all pipes, storages and numeric heat exchangers, with any number of cells and ports, any flows, conductances, densities and steps", "why_tests_cant": "quantifies over real-valued arrays of any length; tests look at single violating steps", "anchors": ["multisim/precomp_funs.py:697-726 _vonNeumann_stability_invar", "multisim/precomp_funs.py:812-854 _vonNeumann_stability_invar_hexnum", "multisim/precomp_funs.py:951-991 _vonNeumann_stability_var"]}
{"id": "C174", "title": "Second law for the numeric heat exchanger", "statement": "The water that leaves a plate heat exchanger carries at least as much entropy as the water that enters it. In a steady state with temperature-dependent properties, and in every explicit step no longer than the heat capacity of each cell divided by everything connected to it, channels and wall create no order: nothing is left behind with negative sign of any quantity whose slope grows with the temperature.", "quantifier": "all numeric heat exchangers with any number of rows, passes and channels, all flows in both directions, heat transfer coefficients and temperatures, all convex functions", "why_tests_cant": "quantifies over states, functions and grids; tests look at the heat flow of single exchangers", "anchors": ["multisim/precomp_funs.py:2593-2816 hexnum_diff", "multisim/precomp_funs.py:209-246 _process_flow_multi_flow", "multisim/parts/hex_num.py:92-158 number of channels"]}
{"id": "C175", "title": "The plans of the predictive controller are found in the stored results", "statement": "The tables which the predictive controller stores at the end of a simulation contain each planning step exactly once and nothing else: its time, number, status and cost in opt_stats, the plan in opt_res_longterm, the adjusted plan in opt_res_longterm_postproc and the state of charge in tes_soc.", "quantifier": "all time frames, planning periods, horizons, sequences of calls, emergencies and results of the optimiser", "why_tests_cant": "depends on the whole sequence of planning steps; a test sees the tables of one simulation", "anchors": ["multisim/parts/controllers.py:1244-1309 ModelPredCHP._special_store_to_disk", "multisim/parts/controllers.py:1779-1928 ModelPredCHP._longterm_opt_pred", "multisim/parts/controllers.py:2102-2124 ModelPredCHP.run_controller", "multisim/parts/controllers.py:907-924 allocation of the records"]}
{"id": "C176", "title": "A heat meter shows the heat that the simulated water carries", "statement": "What a heat meter has counted up to a row is the heat that the simulated water has carried away up to then: water of the temperature T counts with cp(T)*T per mass in the differentials of all parts, so the meter must show the sum of dm * h * (cp(Tff)*Tff - cp(Trf)*Trf).", "quantifier": "all meter readings, time frames and temperatures between 0 and 100 degrees", "why_tests_cant": "the deviation depends on both temperatures of each row; a test sees single readings and would compare them with the same formula", "anchors": ["multisim/_utility/meters.py:156-175 heat meter", "multisim/precomp_funs.py:4034-4044 cp_water"]}
{"id": "C177", "title": "Controllers that refer to other controllers and parts act on what is true in the same step", "statement": "However the controllers of a plant are added: every actuator has at most one; a controller that depends on a master goes, in every step, by what the master has decided in that step and not in the one before; a controller with a reference part works with the temperature of the reference plus the documented difference ref_SP_diff; the actuator of a linked controller has the value of the actuator it is linked to.", "quantifier": "all plants, arguments, orders of adding controllers, control laws and sequences of steps", "why_tests_cant": "depends on the order in which controllers are added and run and on whole sequences of steps; single controllers are tested with given inputs", "anchors": ["multisim/controls.py:30-430 constructor", "multisim/controls.py:436-652 sub-controllers", "multisim/controls.py:841-950 ctrl", "multisim/simenv.py:1645-1665 _add_control", "multisim/simenv.py:2709-2715 _update_control"]}
{"id": "C178", "title": "The controllers of ready-made modules fit their parts", "statement": "The controllers of a ready-made module can be added to every plant that contains the parts of the module and no controller of the same names or actuators; afterwards each actuator of the module whose values are not given by the caller has exactly one controller.", "quantifier": "all modules, numbers of return ports, modes, segment names, sizes of storages, values of controllers and other controllers of the plant", "why_tests_cant": "controllers are added when the plant is built and refer to parts, cells and other controllers by names and indices; each combination of options refers to others", "anchors": ["multisim/parts/part_modules/consumers.py:484-566, 1048-1139, 1481-1561", "multisim/parts/part_modules/suppliers.py:650-926, 1082-1135", "multisim/parts/part_modules/chp_with_fluegas_hex.py:541-768", "multisim/controls.py:30-600 constructor"]}
{"id": "C179", "title": "Saved results are complete, kept and found", "statement": "A simulation whose set_disksaving was accepted ends with a file that contains all its rows and no others, in the folder that was given, with the report beside it; no later simulation changes this file unless overwriting is asked for.", "quantifier": "any number of simulations at the same time or one after the other, all orders of their operations, all paths, dates and names, refused calls included", "why_tests_cant": "files of several simulations collide only for certain names and times; a test runs one simulation", "anchors": ["multisim/simenv.py:511-591 set_disksaving", "multisim/simenv.py:5323-5421 _free_memory", "multisim/simenv.py:4880-4984 _finalize_sim", "multisim/simenv.py:5433-5530 _compress_store", "multisim/simenv.py:5612-5617 _write_report"]}
{"id": "C180", "title": "An array of boundary conditions becomes a time series of the wanted length", "statement": "make_boundarycond_timeseries returns the values of the array at their times from the start to the end of the wanted duration, resampled to the wanted frequency; a too short array is used again from the beginning if this is asked for and refused otherwise.", "quantifier": "all arrays, frequencies, durations and options", "why_tests_cant": "lengths and frequencies are unbounded; errors show only for certain lengths and after long times", "anchors": ["multisim/utility_functions.py:293-412 make_boundarycond_timeseries"]}
{"id": "C181", "title": "Meters can be added to finished simulations and are dated like their results", "statement": "After a simulation meters can be added; the rows of a meter are those of the results of this simulation, dated like them.", "quantifier": "every history of calls of set_disksaving (refused ones included) and of runs, all times, results and starts", "why_tests_cant": "depends on what earlier calls have left behind; tests add meters to one kind of simulation", "anchors": ["multisim/_utility/meters.py:17-68 Meters.__init__", "multisim/_utility/meters.py:129-133, 193-250, 340-345", "multisim/simenv.py:511-591 set_disksaving", "multisim/simenv.py:4880-4984 _finalize_sim"]}
{"id": "C182", "title": "Heat passes through all inner plates of a plate heat exchanger", "statement": "The heat transfer value of a plate heat exchanger is that of all its plates but the first and the last one, each with water of both sides beside it.", "quantifier": "all accepted numbers of plates, passes and channels, all geometries, mass flows and temperatures", "why_tests_cant": "numbers of plates and passes are unbounded; a test would need the expected value for each of them", "anchors": ["multisim/parts/heatexchanger.py:84-148 HeatExchanger.__init__", "multisim/parts/heatexchanger.py:712-713", "multisim/precomp_funs.py:3465-3478 solve_platehex"]}
{"id": "C183", "title": "Validation plots show the errors of the prediction", "statement": "The error measures written into the prediction-realization plots are those of the predicted values against the measured ones (or the given values), and the scatter plot has all its points inside its limits.", "quantifier": "all measured and predicted values, all choices and given values of measures", "why_tests_cant": "the text of a plot is not compared by tests; the swap of the arguments gives plausible numbers", "anchors": ["multisim/_utility/plotting.py:187-329 prediction_realization_scatter", "multisim/_utility/plotting.py:332-522 prediction_realization_2d_kde", "multisim/_utility/plotting.py:689-761 annotate_errors"]}
{"id": "C184", "title": "Prediction-realization plots of time series show what is asked for", "statement": "plt_prediction_realization shows every error measure that is asked for with its value for the prediction, in each of its three kinds of plots, and draws the regression line.", "quantifier": "all rows of measured and predicted values, all choices of measures, all kinds of plots", "why_tests_cant": "the three kinds of plots look up the measures in different ways; a test of one kind with one choice says nothing of the others", "anchors": ["multisim/utility_functions.py:3030-3322 plt_prediction_realization", "multisim/utility_functions.py:3326-3559 plot_pr_scatter, plot_2d_kde, annotate_errors", "multisim/utility_functions.py:2999-3024"]}
{"id": "C185", "title": "A heat map shows the data of its call", "statement": "heatmap_from_df draws every value of the given table and no empty border, with the colour scale and the colour bar asked for, whatever was drawn before.", "quantifier": "all tables with any gaps, all histories of calls with any arguments", "why_tests_cant": "the effect of an earlier call shows only in particular orders of calls; tests draw each plot once", "anchors": ["multisim/_utility/plotting.py:20-184 heatmap_from_df"]}
{"id": "C186", "title": "A plate heat exchanger has no preferred side and no preferred direction", "statement": "If the two circuits of a plate heat exchanger are exchanged, or the pipes of one circuit are exchanged and its flow reversed, the same temperatures appear at the exchanged ports.", "quantifier": "all flows in either direction or none, temperatures, heat transfer values and heat capacities", "why_tests_cant": "the formula is written for the supply side only and has three branches, each of which would have to be compared with another one of the mirrored plant; tests connect a heat exchanger one way round", "anchors": ["multisim/precomp_funs.py:3358-3558 solve_platehex"]}
{"id": "C187", "title": "A plate heat exchanger transfers its heat transfer value times the logarithmic mean temperature difference", "statement": "The heat given off by the supply water is the heat transfer value times the logarithmic mean of the temperature differences at the two ends, which `log_mean_temp_diff` gives for the temperatures at the ports (but no number when the differences are equal); therefore two heat exchangers one behind the other in counterflow act like one with the sum of their heat transfer values, and equal ones side by side with equal shares of the flows as well.", "quantifier": "all flows in either direction, temperatures, heat transfer values and heat capacities", "why_tests_cant": "an identity of transcendental functions over all capacity flows, with a special branch for equal ones; tests compare some numbers", "anchors": ["multisim/precomp_funs.py:3358-3558 solve_platehex", "multisim/precomp_funs.py:5354-5376 log_mean_temp_diff"]}
{"id": "C188", "title": "A larger plate heat exchanger transfers more heat", "statement": "With the same flows and temperatures a heat exchanger with larger, thinner or better conducting plates, or with more plates of the same kind, transfers at least as much heat.", "quantifier": "all plates, flows in either direction and temperatures between 0 and 100 degC", "why_tests_cant": "the numbers of plates enter the numbers of channels, the Reynolds numbers, the choice of the formula for the coefficient, the area and the formula for the outlet temperatures; only some flows show the wrong order", "anchors": ["multisim/parts/heatexchanger.py:84-148 __init__", "multisim/precomp_funs.py:3358-3558 solve_platehex", "multisim/precomp_funs.py:4516-4597 phex_alpha_i_wll_sep"]}
{"id": "C189", "title": "Better insulation, smaller losses", "statement": "The conductance from the water and from the wall of a pipe, storage or lid to the ambient is smaller for insulation that conducts worse and for thicker insulation; around pipes from the critical radius on.", "quantifier": "all radii, thicknesses, conductivities and coefficients", "why_tests_cant": "the thickness enters a logarithm and a quotient with opposite signs; tests compare the formula with numbers", "anchors": ["multisim/precomp_funs.py:4910-4965 UA_fld_wll_ins_amb_cyl", "multisim/precomp_funs.py:5047-5097 UA_wll_ins_amb_cyl", "multisim/precomp_funs.py:5163-5226 UA_fld_wll_ins_amb_plate", "multisim/parts/pipe.py:380-410"]}
{"id": "C190", "title": "A mixing valve can set every temperature between those of its inlets", "statement": "The further the hotter inlet of a mixing valve is opened, the hotter the outlet, whatever the flow; every temperature between those of the inlets is reached with exactly one control value; with one inlet fully open its water leaves the valve unchanged.", "quantifier": "all temperatures between 0 and 100 degC, flows, limits, control values and sequences of earlier actions", "why_tests_cant": "the opening passes the limits, the flows of the ports and the heat capacities of three temperatures; tests use some openings in the middle, not the ends of the range", "anchors": ["multisim/precomp_funs.py:3585-3613 solve_mix", "multisim/parts/mixingvalve.py:615-626 _process_cv"]}
{"id": "C191", "title": "Joining streams in different orders gives the same temperature", "statement": "Two streams joined in a connector give the same stream whichever port they use, and three streams joined in two connectors give the same stream whichever two are joined first.", "quantifier": "all flows and temperatures", "why_tests_cant": "the heat capacity of the outlet is taken at the mean temperature of the inlets, so that every additional connector adds an error that depends on the order; tests look at one connector", "anchors": ["multisim/precomp_funs.py:3274-3347 solve_connector_3w"]}
{"id": "C192", "title": "A heater does not overheat the water", "statement": "Whatever a heater is asked for, the water in a heated pipe does not become hotter than its shutdown temperature (if nothing around it is hotter), but for what the heater can add within a single step.", "quantifier": "all heaters, control values, ways of spreading the heat, flows, plants around them, sequences of accepted steps and rejected attempts", "why_tests_cant": "the heat is decided before the predictor and again before the corrector of each step and flows on to other cells; the bound has to hold for every history", "anchors": ["multisim/precomp_funs.py:1872-2090 heatedpipe1D_diff", "multisim/parts/heated_pipe.py"]}
{"id": "C193", "title": "A heater heats the water up by its power divided by the heat capacity flow", "statement": "When the temperatures of a heated pipe no longer change, the water has taken up on its way the power of the heater and what comes through shell and ports, so that an insulated heater heats it up by its power divided by flow and specific heat, in both directions of flow and for all ways of spreading the heat.", "quantifier": "all numbers of cells, powers, flows, directions, ways of spreading the heat, geometries and materials", "why_tests_cant": "needs the sum over all cells of conduction, advection and heating in a state that only exists in the limit; tests look at single steps", "anchors": ["multisim/precomp_funs.py:1872-2090 heatedpipe1D_diff"]}
{"id": "C194", "title": "Prices move the optimal plan of the CHP plant in the right direction", "statement": "Whatever plans are admissible: with dearer gas no cheapest plan burns more gas, with a higher exchange price none feeds in less, with dearer electricity none uses less of its own, with a higher penalty none buys more, with higher refunds none burns less gas, with dearer upkeep none runs longer.", "quantifier": "all prices, demands, plants, sets of admissible plans (any constraints) and cheapest plans", "why_tests_cant": "compares optima of arbitrary constraint sets; a test sees single plans found by a numerical optimiser", "anchors": ["multisim/parts/controllers.py:2202-2429 _minimizer_input"]}
{"id": "C195", "title": "Without a storage to care for, the best plan is the best choice of each hour", "statement": "If the modulation of each step may be chosen freely, a plan is cheapest for the cost function of plans exactly if each of its entries is cheapest for the cost function of single steps used for the short-term optimisation.", "quantifier": "all prices, demands, numbers of steps and sets of possible modulations", "why_tests_cant": "statement about all plans of all lengths and two separately coded functions", "anchors": ["multisim/parts/controllers.py:2202-2429 _minimizer_input", "multisim/parts/controllers.py:2421-2633 _minimizer_input_scalar"]}
{"id": "C196", "title": "A modulation that the optimiser finds to be cheaper than its neighbours is the cheapest", "statement": "Among the modulations with the plant running a local minimum of the cost of a step is a global one.", "quantifier": "all prices, plants, demands and modulations", "why_tests_cant": "shape of a function with up to ten kinks whose position depends on the demand; tests compare single values", "anchors": ["multisim/parts/controllers.py:2421-2633 _minimizer_input_scalar", "multisim/parts/controllers.py:2063-2100 _shortterm_opt"]}
{"id": "C197", "title": "A plan that the long-term optimisation cannot improve by small changes is the cheapest", "statement": "Among the plans that keep the constraints of the storage, a plan that is not dearer than those near it is not dearer than any other.", "quantifier": "all prices, plants, numbers of steps, demand profiles, storage capacities and plans", "why_tests_cant": "a property of the whole optimisation problem in any number of variables; a test sees the result of one run of a numerical optimiser", "anchors": ["multisim/parts/controllers.py:1779-1870 _longterm_opt_pred", "multisim/parts/controllers.py:1600-1664 tes_cap_before_empty", "multisim/parts/controllers.py:2202-2429 _minimizer_input"]}
{"id": "C198", "title": "The starting point of the long-term optimisation is admissible", "statement": "Before the optimisation the plan that follows the electricity demand is changed until the constraints of the storage hold; the result has modulations the plant can run, plans that keep the constraints are not changed, and the search ends.", "quantifier": "all plans, demand profiles, storages and orders of equal entries", "why_tests_cant": "a loop of up to 100 passes with two changes that work against each other; tests try single profiles", "anchors": ["multisim/parts/controllers.py:2161-2199 _preopt_x0"]}
{"id": "C199", "title": "Temperatures depend on ratios of extensive quantities only", "statement": "If all volumes, areas, heat capacities, conductances, mass flows and heater powers of a pipe, storage, heated pipe, CHP plant (water side) or plate heat exchanger are multiplied by the same factor (equal parts side by side taken as one, other units of mass and energy), all changes of temperature, the decision to switch a heater off and the check of the time step are the same.", "quantifier": "all factors, states, materials, numbers of cells and ports, directions of flow", "why_tests_cant": "relates two different parts in all their states; a test compares single simulations with rounding", "anchors": ["multisim/precomp_funs.py:1031-1235 pipe1D_diff", "multisim/precomp_funs.py:1872-2090 heatedpipe1D_diff", "multisim/precomp_funs.py:640-757 _vonNeumann_stability_invar"]}
{"id": "C200", "title": "Only differences of temperatures matter", "statement": "If all temperatures in and around a pipe, storage, heated pipe, CHP plant (water side) or plate heat exchanger are shifted, their changes stay the same; if all differences (and the power of a heater) are multiplied by a factor, so are the changes.", "quantifier": "all factors and shifts, states, numbers of cells and ports, flows and conductances", "why_tests_cant": "relates all states of a part with each other; a test compares single states with rounding", "anchors": ["multisim/precomp_funs.py:1031-1235 pipe1D_diff", "multisim/precomp_funs.py:1872-2090 heatedpipe1D_diff", "multisim/precomp_funs.py:2095-2400 tes_diff"]}
{"id": "C201", "title": "The table of storage capacities tells the capacities in use", "statement": "The stored table `tes_cap` of the predictive controller has one row per time at which a capacity changed, and its last row holds the capacities the controller goes on with.", "quantifier": "every history of emergencies and optimisations, configuration and initial capacities", "why_tests_cant": "the table is only compared with the controller in runs that were made; which rows share a time depends on the whole history", "anchors": ["multisim/parts/controllers.py:1244-1268 _special_store_to_disk", "multisim/parts/controllers.py:1757-1780 _adapt_cap", "multisim/parts/controllers.py:2028-2060 _restore_adptd_caps"]}
{"id": "C202", "title": "Better insulated parts stay hotter", "statement": "Of two storages in the same place with the same inflows, the better insulated one is at no time and in no cell colder than the other one; an additional conductance to the ambient cools a cell by exactly the heat it lets through.", "quantifier": "all pairs of insulations, states, flows, numbers of cells and steps", "why_tests_cant": "compares two simulations of unlimited length with different parameters", "anchors": ["multisim/precomp_funs.py:1205-1224 dT_cond", "multisim/precomp_funs.py:2095-2400 tes_diff", "multisim/precomp_funs.py:1031-1235 pipe1D_diff"]}
{"id": "C203", "title": "A larger storage does not make plans more expensive", "statement": "A larger storage admits all plans of a smaller one, so its best plan is not more expensive; an emergency adaption of a capacity never makes the best plan cheaper; two admitted plans never differ by more heat than the storage holds, and without storage there is only one plan.", "quantifier": "all prices, loads, demands, contents, capacities, plans and horizons", "why_tests_cant": "quantifies over all plans of all lengths and compares optima", "anchors": ["multisim/parts/controllers.py:1591-1664 tes_cap_before_empty, tes_cap_before_full", "multisim/parts/controllers.py:1784-1860 _longterm_opt_pred"]}
{"id": "C204", "title": "The length of the steps of a plan does not matter", "statement": "If every step of a plan is divided into equal parts with the same loads and modulation, the cost of the plan stays the same, and so do the constraints of the storage at the ends of the original steps.", "quantifier": "all numbers of parts, plans, prices, loads, demands and horizons", "why_tests_cant": "relates plans of all lengths with different settings of opt_every; tests use one of them", "anchors": ["multisim/parts/controllers.py:1221-1226 _freq_fac, _precalc_pth_oe_uf", "multisim/parts/controllers.py:1376-1380 heat_dmd_kum", "multisim/parts/controllers.py:2202-2429 _minimizer_input"]}
{"id": "C205", "title": "A stronger heater heats more", "statement": "Of two equal heated pipes (or water sides of CHP plants) with the same flows, the one whose heater is set to at least the power of the other one at every step is at least as hot in every cell at all later times; the additional power heats the heated cells in proportion to their share of it.", "quantifier": "all powers, flows, port temperatures, initial temperatures, numbers of cells and steps", "why_tests_cant": "compares two runs for all sequences of powers and flows; the shutdown makes the relation fail only in special combinations of step length and power", "anchors": ["multisim/precomp_funs.py:1872-2092 heatedpipe1D_diff", "multisim/parts/heated_pipe.py:93-155 HeatedPipe", "multisim/parts/chp_plant.py:1031-1063 get_diff"]}
{"id": "C206", "title": "A plate heat exchanger answers in proportion to its inlet temperatures", "statement": "With given flows and heat transfer value, the temperatures at the ports of a plate heat exchanger are linear in the inlet temperatures (superposition, shifts), the transferred heat is proportional to the difference between the inlets, and hotter water at any inlet never makes any outlet colder.", "quantifier": "all flows in either direction or none, temperatures, heat capacities and heat transfer values", "why_tests_cant": "relates outputs for all pairs of inlet temperatures; the exception sits on a set of measure zero", "anchors": ["multisim/precomp_funs.py:3358-3558 solve_platehex"]}
{"id": "C207", "title": "The action of a controller does not depend on how the solver divides the time", "statement": "When the inputs of a controller stay the same during an interval, the control value and the actuator at its end do not depend on the number and lengths of the steps into which the solver divides the interval.", "quantifier": "all histories of inputs, all divisions of their intervals into steps, all gains and limits", "why_tests_cant": "relates runs with different and unboundedly many steps; step lengths are chosen by the solver", "anchors": ["multisim/controls.py:841-950", "multisim/parts/controllers.py:375-658"]}
{"id": "C208", "title": "A larger deviation never leads to a weaker action", "statement": "Of two plants with the same controller, the one whose process value has always been at least as far below the setpoint gets at least as large a control value and actuator position at every time.", "quantifier": "all pairs of histories, gains, limits, slopes, anti-windup values, hysteresis widths and states of the master", "why_tests_cant": "compares pairs of unbounded histories; limits, integral and slope act together", "anchors": ["multisim/controls.py:841-950", "multisim/parts/controllers.py:375-658"]}
{"id": "C209", "title": "Anti-windup limits the memory of a controller", "statement": "Once the deviation has kept its sign and a size of at least eps for 2*anti_windup/eps seconds, what a PI controller does does not depend on anything that happened before.", "quantifier": "all pairs of histories before, all later inputs, all gains, limits and step lengths", "why_tests_cant": "compares pairs of unbounded histories with unbounded futures", "anchors": ["multisim/controls.py:841-950", "multisim/parts/controllers.py:375-494 PID.run_controller"]}
{"id": "C210", "title": "The flows of a plant are proportional to the flows of its pumps", "statement": "With unchanged valves, the mass flow at every port of an accepted plant is a linear function of the mass flows of the pumps: flows superpose, doubling all pumps doubles all flows, and nothing flows when no pump runs, whatever flowed before.", "quantifier": "all plants accepted by the topology analysis, all pump flows of either sign, all valve openings, all earlier flows", "why_tests_cant": "quantifies over all plant topologies; the routines read and overwrite one shared memory", "anchors": ["multisim/simenv.py:2620-2708 _update_FlowNet", "multisim/simenv.py:3794-3824"]}
{"id": "C211", "title": "The modulation of a running CHP plant does not depend on how the time is divided", "statement": "While a running CHP plant is asked for a possible power and is not too hot, its modulation after an interval does not depend on the steps into which the solver divides it, and it has reached the request exactly when the time needed with the largest ramp has passed.", "quantifier": "all parameters, requests, initial modulations and divisions of the interval", "why_tests_cant": "relates runs with different and unboundedly many steps; the ramp is limited step by step", "anchors": ["multisim/parts/chp_plant.py:680-774"]}
{"id": "C212", "title": "The meters of branches and of sections add up", "statement": "Heat meters in two branches between the same temperatures add up, row by row, to the heat meter of the common line: mass, volume, power and heat; the counters that count only one direction add up, too; and the meters of two sections of a line add up to the power and heat of the whole line.", "quantifier": "all lists of rows, time vectors, flows, temperatures, heat capacities and densities", "why_tests_cant": "relates three meters over histories of any length; a test compares single readings", "anchors": ["multisim/_utility/meters.py:70-207"]}
{"id": "C213", "title": "Electricity of the CHP plant is used on site first, and its bonus is degressive", "statement": "No distribution of the electricity of the plant among base load, tenants and grid needs less purchase or feeds in less than the one that is charged, more power never means more purchase, and the bonus per additional kW falls with the size of the plant, so that two plants never earn less than one with their common power.", "quantifier": "all powers, base loads, demands and distributions", "why_tests_cant": "compares with all other distributions and all pairs of powers, across the limits of the tiers", "anchors": ["multisim/parts/controllers.py:2302-2336", "multisim/parts/controllers.py:2505-2539", "multisim/parts/controllers.py:2635-2699"]}
{"id": "C214", "title": "Controllers do not depend on the unit of the process value", "statement": "A PID, bang-bang or two-sensor controller whose settings are converted to another unit of its process value (another scale and zero, such as degrees Fahrenheit) does the same to its actuator at every call; Ziegler-Nichols tuning with the converted critical gain and automatic anti-windup give exactly the converted settings.", "quantifier": "all units, settings, dependencies, saturations, slope limits, initial states of actuators and sequences of calls", "why_tests_cant": "relates two controllers over unboundedly many calls", "anchors": ["multisim/controls.py:841-950", "multisim/parts/controllers.py:15-658"]}
{"id": "C215", "title": "The ports of a connector are interchangeable and only ratios of flows matter", "statement": "Connecting the same pipes to a connector in another order gives the same temperatures in the pipes, multiplying all flows by the same factor changes no temperature, and the two inlets of a mixing valve are interchangeable.", "quantifier": "all flows including standstill and every flow direction, temperatures, heat capacity functions and permutations", "why_tests_cant": "all directions and all permutations at once; a test fixes one arrangement", "anchors": ["multisim/precomp_funs.py:3274-3347", "multisim/precomp_funs.py:3585-3613"]}
