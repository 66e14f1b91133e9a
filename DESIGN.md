# Formal model of multisim: design

Subject: JoElfner/multisim, Python sources in `/repo` (read as text, never executed).
Prover: Lean 4.33.0 with Mathlib. Everything lives in `lean/Verif`.

## 1. Trusted base

* The Lean kernel, and the three standard axioms `propext`, `Classical.choice`, `Quot.sound`.
  Section 5 lists the axioms each property theorem depends on.
  No own axiom, `sorry`, `native_decide` or `bv_decide` is used.
* The transcription. Each model definition cites the file and lines in `/repo` it transcribes.
  That the Python text means what the transcription says is not machine checked.
* Numbers. Python floats are modelled by an arbitrary linearly ordered field `K`
  (instances ℚ and ℝ; ℝ where `exp`, `log` or real powers occur).
  Rounding, overflow and denormals are outside the model.
  NaN is modelled explicitly where the control flow depends on it (error estimate of the solver).
* NumPy and Numba. Array slices, `cumsum`, `clip`, `searchsorted`, negative indices are modelled
  as list functions in the places where they are used. Numba compilation is assumed to keep the meaning.
  Aliasing of arrays is modelled only where it matters (C05, C17, C58).

## 2. Layout

* `Verif/Model/*.lean`: transcription of the code, one definition per function (or branch group).
* `Verif/Spec/*.lean`: small specifications that do not mention the model.
* `Verif/Props/*.lean`: property theorems `Cnn_…` with an `example` beside each that meets the hypotheses.
* A theorem named `…_partial` covers less than the English claim; the gap is stated beside it.
* A theorem named `…_fails…` proves that the claim is false of the code, with a concrete witness.

## 3. Plan per property

| id | modelled | proof plan |
|----|----------|------------|
| C01 | retry loop of `_heun_adaptive` as a step machine over an arbitrary outcome stream | measure: shrink steps reach `min_stepsize`, at most 100 instabilities |
| C02 | same machine, error `none` = NaN | case analysis, induction over attempts |
| C03 | same machine iterated over steps, `set_timeframe` start step 1.0 | invariant; negation for `max_stepsize < 1`; partial for `≥ 1` |
| C04 | same | negation by the stability branch; partial for runs without instability |
| C05 | attempt as a function of abstract part maps with explicit port backup | induction over rejected attempts, refinement to a single attempt |
| C06 | growth factor formula | negation for many successes; partial for `steps_since_fail ≤ factor_recovery` |
| C07 | time loop of `start_sim` | induction |
| C08 | buffer machine with flush / enlarge, `_finalize_sim`, `_crop_results` | refinement to the list of all rows |
| C09 | same | negation when the run ends on a full buffer; partial otherwise |
| C10 | `set_timeframe` branch by branch with a small dynamic value type | decision logic, iff |
| C11–C15 | registration tables as association lists, one transition per API call | invariants by induction over calls; negations where BC ports / self connection break them |
| C16 | `_add_ports` position computation and sorted insertion | induction; negation for `dm_char` |
| C17 | `_update_FlowNet` as a fold over routines on a memory of cells | induction over the routine list |
| C18 | flow routines of connector, valve, storage evaluated by the C17 interpreter | algebra; negation for a storage whose last port is taken from a neighbour |
| C19 | valve factors | algebra, induction over actions |
| C20, C21 | `_process_flow_var`, `_process_flow_invar` | induction over cells / ports |
| C22–C24 | `pipe1D_diff` differential with ports | telescoping sums, convex combination |
| C25, C26 | von Neumann check | algebra, induction over violations |
| C27, C28 | `_update_dyn_BC` | convexity; negation for index past the end |
| C29–C31 | connector, mixing valve, split, pump temperature solvers | convexity with constant cp (partial), negation with the real cp polynomial |
| C32, C33 | plate heat exchanger NTU formulas over ℝ | algebra, monotonicity of exp |
| C34 | condensing heat exchanger flow selection and bypass | decision logic |
| C35–C42 | `Controls.ctrl`, PID, bang-bang, two sensors, dead time, sub-controllers, reset | invariants over histories, negations for invert / slope / reset |
| C43–C45 | `get_diff` of `chp_plant.py` and `_process_chp_core_modulation` as a state machine | invariants over histories |
| C46 | `heatedpipe1D_diff` heating term | decision logic |
| C47–C49 | tariffs and clipping of the predictive CHP controller | piecewise-linear algebra |
| C50 | water polynomials | polynomial inequalities on [0,100] |
| C51, C52 | conductance formulas | algebra, logs for cylinders |
| C53 | moving average | cumulative sum telescoping |
| C54, C55 | meters | sums; association list; negation for volume flow |
| C56 | error measures | Cauchy–Schwarz; negation for several columns |
| C57 | corrector error scaling | algebra; negation below −atol/rtol |
| C58 | heap of arrays, port source references | negation by concrete heap |
| C59 | PID tuning tables | decision logic |
| C60 | postponed calls | list sorting by kind, permutation argument |
| C61 | retry loop with the stability checks of every evaluation | induction over attempts; negation for the second evaluation |
| C62–C65 | CHP state machine and power curves | invariants; negations for start state, modulation limits, efficiencies |
| C66 | valve routines of C17 with the accepted limits | decision logic; negation |
| C67 | reset as a memory of arrays with views | negation by a shared array |
| C68 | heating term of `heatedpipe1D_diff` | sum over cells |
| C69 | range checks of the condensing heat exchanger, step by step and at the end | decision logic; negation at the limit |
| C70 | control laws under `invert` | algebra; negation for the discrete PID |
| C71–C73 | cost functions of the predictive controller | algebra; negations for units, clipping, price |
| C74–C78 | emergency control, capacities, constraints, plan adjustment | invariants over histories; negations |
| C79 | heat transfer coefficients as a history of evaluations | invariant, positivity of the Nusselt correlations over ℝ |
| C80, C81 | circuit functions on a heap of arrays; split shells | algebra with logarithms; negation by aliasing |
| C82 | logarithmic mean temperature difference | inequality `log x ≤ x − 1`; negation for equal differences |
| C83–C88 | `hexnum_diff` on an `n × 3` grid with its ports and its stability check | balance by telescoping, maximum principle, flat indices; negations |
| C89 | `PID.run_controller` over a sequence of calls | induction over the calls: integral and difference terms; negation for variable steps |
| C90–C93 | set-up methods as a state machine with exceptions, all sequences of calls | invariants over scripts; negations by explicit scripts |
| C94–C95 | NaN check of the main loop, time frame after stop and reset | exact characterisation; negations |
| C96 | differentials of all numeric parts, non-numeric parts, attempts of the solver | direct calculation per part; induction over parts and rejected attempts |
| C97 | topology analysis as a machine with an explicit stack, flow routines of all parts | measure (open ports, remaining work); invariant: every routine writes a fresh cell and reads known cells |
| C98 | same | induction over the causal net; negation for storages with unreached ports |
| C99 | same, with the list of connections over which a flow was handed on | invariant per connection and per part; sum over a circuit; negation with two valves in a circuit |
| C100 | same | simulation: the machine takes the same steps under other names; negation for a heat exchanger called dmd_hex |
| C101 | same | determinism of the machine; negation with two branched pipes |
| C102 | attempt of the solver, whole plant as a function of the temperatures | calculation per part; negation for a circuit with a pump |
| C103 | same | linearity; negation for a circuit with a pump |
| C104 | `Model/Outliers` over the reals, series as `Fin n → ℝ`, `ddof` 0 or 1 | Chebyshev's and Samuelson's inequalities; negation for short series |
| C105 | same, medians of sorted lists over any ordered field | counting on both sides of the median; negation for a constant majority |
| C106 | `Model/Buoyancy` with the density polynomial of `Model/Water` | monotonicity of the density from 3.5 °C; negation below 4 °C |
| C107 | same | monotonicity of powers on both branches; negation at the transition |
| C108 | `Model/Attempt`, `Model/Cells`, `Model/Stability` | invariant over attempts, calls and runs, Heun's step as mean of two Euler steps; negation by a pipe of three cells |
| C109 | `Model/PortCond` (set-up of connections), `Model/Cells.uaPort`, `Model/Mixing` | closed form of what a part learns about a port, symmetry; negations by evaluation |
| C110 | same | the closed form does not mention the order; negations by evaluation |
| C111 | `Model/PortCond`, `Model/Cells`, `Model/Attempt` | balance of each part (C23, C68), involution on the ports with C109, conservation in a step with C103 |
| C112 | `Model/Cells`, `Model/Attempt`, `Model/HexNum` | differences are linear in the temperatures; a difference is a state of a plant with boundary values in [a, b], so C108 applies; induction over the steps |
| C113 | `Model/MeterFlow` | index of the flow column per kind of part against the flow through the cell |
| C114 | `Model/Resample` | means lie in the range of the interval, lines between their ends; blocks of equal length for totals |
| C115 | `Model/Modules` | the search ends at the next number congruent 1 modulo twice the passes |
| C116 | `Model/PipeSpecs` | geometry for an arbitrary interpolation; which rows the interpolation sees |
| C117 | `Model/Modules` | set-up calls of the modules as scripts; the pairing of ports of C14 applied to the joined script |
| C118 | `Model/Modules` | names are a stem and a segment; stems end in no digit, so that both can be read off the name |
| C119 | `Model/Modules` | the dictionary as state passed from call to call |
| C120 | `Model/Geometry` | own spec `Cylinder` of a tube in layers; algebra of each size; counterexamples general in the arguments |
| C121 | `Model/Geometry` | sum over all cells of heat capacity times rate; cases of the choice |
| C122 | `Model/Geometry` | induction on the dictionary; subset of equal length is a permutation |
| C123 | `Model/HexGeo` | own formula of a rounded rectangle; the argument record with one description replaced by another |
| C124 | `Model/NormErr`, `Model/Stats`, `Model/Outliers` | affine maps commute with sorting, hence with quantiles |
| C125, C126 | `Model/FlowAlpha`, `Model/Conductance` | monotone correlations; at Re = 2300 explicit bounds on the logarithm and third roots |
| C127 | `Model/FlowAlpha`, `Model/PlateHex` | heat as reciprocal of a resistance which is monotone in both capacity flows and in the heat transfer value (convexity of exp) |
| C128 | `Model/Conductance` | common form of the correlations (growing less than the square root); polynomials of air bounded on the range |
| C129 | `Model/Attempt`, `Lemmas/HeunError`, `Props/ConvergeWater` | local error by fencing derivatives, discrete Gronwall; lateness of parts that hand on as a contraction; for the refutation an invariant of the circle with a pump |
| C130 | `Model/Attempt`, `Model/Cells` | the step is the mean of the state and two Euler steps, hence a contraction; Banach fixed point for the steady state; losses by comparison with a warmer ambient |
| C131 | `Model/Cells`, `Model/FlowAlpha`, `Model/Attempt` | arrays read backwards; two plants with a correspondence of states (`Lemmas/Twin`); counterexample for the stability check |
| C132 | `Model/Cells`, `Model/PortCond`, `Model/FlowAlpha`, `Model/Attempt` | conductance of the joint equals that between two cells; sides of a cell compared; `Lemmas/Twin` for plants; strict increase of losses by C125 |
| C133 | `Model/Perf`, `Model/Stats`, `Model/NormErr` | columns of the filtered table as lists; each measure compared with that of C56/C124; three refutations computed |
| C134 | `Model/Attempt`, `Model/StepControl`, `Model/Stats` (`plantErr`) | system of both plants side by side, `Lemmas/Twin` for each; idle cells have error zero and enlarge the divisor |
| C135 | `Model/StepControl`, `Model/Stats` (`plantErr`) | sum of squares of scaled errors below the number of cells; single cell bounded by the sum |
| C136 | `Model/Attempt`, `Model/StepControl` (`breach`), `Model/Stats` | lists at permuted positions, `Lemmas/Twin`; sum of errors invariant; two executions of the retry loop computed |
| C137 | `Model/Plan`, `Model/Resample` | induction over the calls: after a call at `t` the next plan is number `floor(t / opt_every) + 1`; bins of the resampling as intervals of stamps |
| C138 | `Model/Sensor`, `Model/Ports` | position of a name in a list without repetitions; the (cell, name) pairs of C16 are preserved by the insertions |
| C139 | `Model/Implicit`, `Model/HexNum` | maximum principle at the new temperatures; injective linear maps on finite grids are surjective |
| C140, C141 | `Model/Saving` | selected columns compared with an independent reading of the choice; keys as lists of characters taken apart at slashes; the store is any list with the right contents |
| C142, C143 | `Model/Assign` | slices of arrays as positions; the loop over the series against the last series of each element; actuators as state machines over any flows |
| C144 | `Model/TimeLoop`, `Props/TimeLoop` | the arrays of a part follow the main buffer (simulation relation) when saving to disk; induction over the steps otherwise |
| C145 | `Model/Loading`, `Model/Saving` | the file as the list that `walk` yields; both directions of membership by induction over it |
| C146 | `Model/Cells`, `Spec/Stratified` | one cell pulled towards the temperatures around it (as in C24), now with bounds local to a cell; two neighbours each use at most half of their difference |
| C147 | `Model/Chp` | invariant of the recorded start and stop times; rejected attempts put these times ahead, but only once |
| C148 | `Model/RollOutliers` | closed form of the filled medians; distances that are zero or one value have a standard deviation in closed form |
| C149 | `Model/FlowLength`, `Model/Conductance` | conductances in proportion to cell lengths for pipes; for storages the balance at the surface has one solution, which falls with the length of the flow |
| C150 | `Model/RollCentered` | windows as sets of positions; intervals of integers compared with distances in time, means of lines in closed form |
| C151 | `Model/Package` | files as lists of characters; invariant of the loop on existing folders; first occurrence of the feature |
| C152 | `Model/RootFind` | secant step solves a linear equation; invariant q = f(p); Lipschitz bound on the last step; explicit failures |
| C153 | `Model/Cells` | balance of every cell in a steady state; first coldest cell cannot be below the ambient; induction from the outlet against the flow; mirror image (C131) for the other direction |
| C154 | `Model/FlowIndex` | transcription of the index search with the array sizes left by the constructors; list induction over the added ports |
| C155 | `Model/ReCorr` | the minimised function over the coefficient of C126; strict monotonicity in the correction; broadcasting of array sizes by case distinction |
| C156 | `Model/PolyReg` | enumeration of combinations by recursion, membership and no duplicates by induction; padded table read back; MvPolynomial for degree and completeness |
| C157 | `Model/Fit`, `Model/Resample`, `Model/Perf` | order of the times gives the last/first reading; grid times by division; measures from C133, range from C114; the failures are general in the values |
| C158 | `Model/Maint` | exact solution of the normal equations over ℚ, orthogonality gives uniqueness of the least-squares fit; cubic inequalities by Bernstein products; rpow for the cost per kWh |
| C159 | `Model/Report` | buffers of `Model/TimeLoop` with a row per step; steps of `Model/StepControl`; induction over the attempts for codes and repetitions; refinement relation for the mark of a stopped run |
| C160 | `Model/Controls` | one call in closed form; lower bound of the integral by induction over the calls; archimedean argument; fixed points of the call for the counterexamples |
| C161 | `Model/Cells` | difference equation from the steady balance of C153; discrete maximum principle; explicit barrier with a boundary layer at the outlet; powers compared with exp |
| C162 | `Model/Controls` | one call from C38; induction over the calls for the band; archimedean argument for reaching it; distance covered between two switchings |
| C163 | `Model/Air`, `Model/Conductance` | `Lemmas/PolyPos`: polynomials shifted to the pieces of a division of the interval and bounded from below there; rational bounds compared in the kernel; monotonicity by the derivative |
| C164 | `Model/Water`, `Model/Buoyancy` | `Lemmas/PolyPos` as for C163 |
| C165 | `Model/Controls` | one call from C39; induction over the calls; distance covered between two switchings |
| C166 | `Model/ByName` | selection, result files and dictionary characterised by membership; string functions on lists of characters |
| C167 | `Model/Cells`, `Model/Attempt` | discrete energy method: summation by parts, Poincaré inequality on the chain of cells, convexity for the corrector; geometric decay per step |
| C168 | `Model/Label` | strings as lists of characters, induction over the quantities; `.3G` by the decade of the number |
| C169 | `Model/Cells`, `Model/Attempt` | shares of the change that are missing are ordered along the pipe, both predictors and hence the corrector keep this; balance of the total over all steps telescopes to the arrival time |
| C170 | `Model/Cells`, `Model/Flows`, `Model/Attempt` | with two open ports at the ends the differential of a storage is that of a pipe; then as C169 |
| C171 | `Model/Cells`, `Model/Flows`, `Model/Attempt`, `Spec/SecondLaw` | an explicit step makes each new temperature a convex combination of old, ambient and port temperatures (as C108); Jensen gives the law per cell, the sum telescopes; the solver step is the mean of two explicit steps; entropy by φ(T) = T/Ta - ln T, minimal at Ta |
| C172 | `Model/PortCond`, `Model/Cells`, `Model/Attempt` | C171 for every part; what goes through paired ports cancels for every function of the temperature since both sides conduct equally well; sum over the parts, mean of two explicit steps, induction over steps with different flows |
| C173 | `Model/Stability` | a maximum is bounded if and only if all entries are; solve each of the inequalities for the step; a pipe with cold and warm water refutes the comparison with the mass of the cell itself |
| C174 | `Model/HexNum` | every cell: what it is connected to lies above the tangent at its temperature; conduction and water passing from cell to cell telescope for every function of the temperature; Jensen for explicit steps, and for steps of the solver as the mean of the beginning and two explicit steps; entropy of water by integrating the slope of the enthalpy |
| C175 | `Model/PlanRecords`, `Model/Plan` | rows to which nothing was written yield nothing; each planning call writes one row, in order (invariant: written rows, then fresh rows); every table is a filterMap over the rows |
| C176 | `Model/Meters`, `Model/Water` | the difference of a row is the mean temperature times the difference of the heat capacities; bounds by the slope of cp(T)*T (C50), summed over the rows (C54) |
| C177 | `Model/CtrlNet` | induction on the added controllers: a master stands before its dependents; the pass over the list then hands over the new actuator values; C41 for the single step |
| C178 | `Model/ModuleCtrl`, `Model/CtrlNet`, `Model/Modules` | the tables of parts and controllers are checked for the names without segment; cancelling the segment gives all segments; induction on the controllers of the module |
| C179 | `Model/StoreFiles` | invariant over all histories of any number of simulations on one disk: temporary stores belong to stores of the same name; names of stores, temporary stores and reports are shown to differ by their endings |
| C180 | `Model/BcSeries` | repeating an array gives the entry of the index modulo its length; a slice of a series is its beginning; enough copies cover the duration |
| C181 | `Model/MeterLife` | the state after a history ends with the last call of `set_disksaving` and the last run |
| C182 | `Model/PlateCount` | numbers of channels by the accepted cases; the integer quotient by the remainder `passes - 1` |
| C183 | `Model/ValPlot` | every measure characterised by an equation without division; symmetric sums |
| C184 | `Model/PredPlot` | look-ups of labels by cases; least squares by completing the square |
| C185 | `Model/Heatmap` | induction on the history of calls from its end; first and last lines with a value |
| C186 | `Model/PlateHex` | cases of flow directions; the share of the demand side is the share of the supply side with the sides exchanged; bound of the cut-off |
| C187 | `Model/PlateHex`, `Model/Conductance` | ratio of the temperature differences at the ends, product of ratios for pieces |
| C188 | `Model/PlateCount`, `Model/FlowAlpha` | monotony of the resistance; for the refutation the jump of the coefficient at a Reynolds number of 2300 against the gain of two plates among many |
| C189 | `Model/Conductance` | inequalities of the logarithm on both sides of the critical radius |
| C190 | `Model/Mixing`, `Model/Valve` | outlet temperature as affine function of the opening; enthalpy of water strictly increasing |
| C191 | `Model/Mixing` | flow-weighted mean; error bound of C30 used twice |
| C192 | `Model/Cells`, `Model/Attempt` | two cases (switched off / all cells below the shutdown temperature), each with C24; induction over steps |
| C193 | `Model/Cells` | sum of C23 and C68 over all cells |
| C194 | `Model/Tariff` | revealed preference: the cost is linear in each price |
| C195 | `Model/Tariff` | induction over the steps with C72 |
| C196 | `Model/Tariff` | the cost as a sum of powers capped at thresholds, whose coefficients are signed under the price condition |
| C197 | `Model/Tariff`, `Model/ModelPred` | plans on the way from one plan to another keep constraints (linear) and cost no more (C196) |
| C198 | `Model/Preopt` | invariants of the loop |
| C199 | `Model/Cells`, `Model/Flows`, `Model/Stability`, `Model/HexNum` | each term scales with the factor, heat capacities too |
| C200 | `Model/Cells`, `Model/HexNum` | all terms are linear in differences of temperature |
| C201 | `Model/CapLog` | every change of a capacity records a row; induction over the calls; dropping duplicated times keeps all rows if the times differ |
| C202 | `Model/Cells` | the differential differs by the additional losses; comparison principle of C112 for each stage of a Heun step; induction over the steps |
| C203 | `Model/ModelPred`, `Model/Tariff` | the constraints are monotone in the capacities; both of them bound the cumulated production from two sides |
| C204 | `Model/Tariff`, `Model/ModelPred` | every entry of the earnings is proportional to the length of a step; cumulated sums of repeated entries |
| C205 | `Model/Cells`, `Model/ChpCore` | the heat term is monotone in the power, the rest by C112; induction over Heun steps |
| C206 | `Model/PlateHex` | the solution is linear in the temperatures; monotony from linearity and C33 |
| C207 | `Model/Controls` | clipped sums of one sign merge; switching is idempotent; induction on the division |
| C208 | `Model/Controls` | limits are monotone; order of states kept by every call |
| C209 | `Model/Controls` | the limit absorbs both integrals |
| C210 | `Model/Topology`, `Model/FlowNet` | every routine of an analysed net is linear in flow cells; C98 |
| C211 | `Model/Chp` | the ramp limit is a semigroup in the step length |
| C212 | `Model/Meters` | the columns are cumulative sums of terms linear in the flow |
| C213 | `Model/Tariff` | case distinction of the balance; the bonus as a sum of minima with falling rates |
| C214 | `Model/Controls`, `Model/PidTuning` | simulation relation: states scale, control values agree |
| C215 | `Model/Mixing` | sums over masks do not change under permutations; common factors cancel |

## 4. What is modelled and what is not

Modelled, per file (lines are cited at each definition):

* `simenv.py`: `set_timeframe`, `_heun_adaptive`, `start_sim`, `_finalize_sim`, `_crop_results`,
  `_free_memory`, `_add_part`, `_add_ports`, `_add_open_port`, `assign_boundary_cond` (targets, stamps), `_initialize_actuator`, `_connect_ports`,
  `_check_unconnected_ports`, `_get_port_connections`, `_calc_UAwll_port`, `_get_topology`, `_recursive_topology`, `_update_FlowNet`, `_update_dyn_BC`, `_call_postponed`, `_reset_simenv`,
  `set_solver`, `set_disksaving`, `add_part` (choice of saved cells), `_compress_store` (selection of columns), `return_stored_data`, `_get_specs_n_props` (areas), `_build_simenv`, `initialize_sim` (as a state machine).
* `precomp_funs.py`: port and flow processing, `pipe1D_diff`, `heatedpipe1D_diff`, `tes_diff`, `chp_core_diff` (common form),
  `hexnum_diff`, `hexnum_diff_impl` with its root function, the three stability checks, connector, valve, pump and plate heat exchanger solvers, `condensing_hex_solve`
  (flow selection), dead time, corrector and error estimate, water polynomials, conductances, heat transfer coefficients (also `phex_alpha_i_wll_sep`, both variants),
  circuit functions, moving averages, CHP curves, `buoyancy_byNusselt`, `_process_chp_core_modulation`.
* `controls.py`, `parts/controllers.py`: control laws, choice of the sensed cell, PID tuning, cost functions and control of the predictive controller.
* `parts/*.py`: sizes of pipes and storages, heated cells, flow routines, valve factors, resets, CHP start, channel numbers of the numeric heat exchanger.
* `_utility/meters.py` (with the choice of flow columns), `_utility/stat_error_measures.py`, resampling (from the documentation of pandas), `remove_outliers_std`, `remove_outliers_mad`,
  `interp_pipe_specs`, `adjust_pipes`, `load_sim_results`, `ts_performance_indicators` (series of equal sampling, alignment of indices as documented by pandas) in `utility_functions.py`.
* `parts/part_modules`: parts, open ports, connections and controllers of all modules, numbers of plates, pipe of the CHP plant.

Simplified:

* Floating point numbers are exact, see section 1. Infinite values do not occur; NaN only where stated.
* Results of optimisers (`scipy.optimize`), of regression models and of sensors are arbitrary inputs.
* Heat transfer coefficients enter the differentials as arbitrary inputs; their formulas are modelled separately (C79).
* pandas indices are represented by sampling intervals and positions.
* Compiled code reading behind an array gets an arbitrary value (C87); interpreted code raises (`none`).

Not modelled: plotting and console output, the HDF5 library (a store is a list of tables with keys), performance, just-in-time compilation,
`parts/pipe2D.py` (cannot run: it calls `UA_fld_wll` and `UA_wll_ins_amb`, which do not exist in `precomp_funs.py`),
the Newton and secant solvers (used nowhere), `flownet.py` (unused sketch), rolling outlier removal and regression in
`utility_functions.py`, sizes and set points in `parts/part_modules` other than pipes and plates, the drawing of nets.

## 5. Axioms per theorem

From `#print axioms` for every theorem of `MANIFEST.json` (915 theorems).

* Axioms: none (10 theorems): `Meters.C55_first_kept_partial`, `Meters.C55_fails_volumeflow_replaced`, `Meters.C55_fails_volumeflow_refused`, `Meters.C55_fails`, `Meters.C55_fails_disk_shared`, `HexNum.C85_fails_two_plates`, `Modules.C119_plants_partial`, `Modules.C119_fails_second`, `Modules.C119_fails_old`, `MeterLife.C181_refused_new`.
* Axioms: `propext` (17 theorems): `Registry.C11_rejected_part_partial`, `Registry.C11_fails_store_results`, `Meters.C55_unique_partial`, `Protocol.C91_fails_only_adaptive`, `Modules.C118_fails_segments`, `Sensor.C138_named_partial`, `Sensor.C138_refused`, `Sensor.C138_fails_condensing`, `Assign.C142_refused_partial`, `Assign.C142_fails_refused`, `CtrlNet.C177_fails_reference`, `CtrlNet.C177_fails_ignored`, `StoreFiles.C179_report_partial`, `StoreFiles.C179_fails_report`, `MeterLife.C181_refused_length`, `MeterLife.C181_fails_start`, `Heatmap.C185_log`.
* Axioms: `Quot.sound`, `propext` (98 theorems): `Registry.C11_part_names_unique`, `FlowNet.C17_single_routine`, `FlowNet.C17_equations_hold`, `FlowNet.C17_idempotent`, `FlowNet.C18_storage_partial`, `FlowNet.C18_valve`, `Valve.C19_follows_control`, `Mixing.C31_split_and_pump`, `Controls.C35_saturation_partial`, `Controls.C38_fails_inverted`, `Controls.C39_two_sensors_partial`, `Deadtime.C40_fails_switching`, `Controls.C41_master_partial`, `Controls.C42_reset_partial`, `Chp.C45_emergency_stop`, `Cells.C46_shutdown`, `ModelPred.C49_used_entry`, `Meters.C54_steps_overcount`, `Buffers.C58_enlarge_keeps_results`, `Buffers.C58_fails`, `Registry.C60_grouped_by_kind`, `Valve.C66_divisor_port_A_partial`, `Reset.C67_temperatures_restored_partial`, `Reset.C67_valve_openings_restored`, `Reset.C67_pump_flow_restored_iff`, `Reset.C67_fails_pipe_with_pump`, `Reset.C67_fails_not_reset`, `Controls.C70_fails_discrete`, `ModelPred.C75_emergency_off`, `ModelPred.C75_plan_followed`, `ModelPred.C75_hysteresis`, `Conductance.C80_series_arguments_kept_partial`, `Conductance.C80_parallel_first_is_result`, `Controls.C89_continuous`, `Protocol.C90_needs_setup_partial`, `Protocol.C90_default_initialization_partial`, `Protocol.C91_adaptive_partial`, `Protocol.C91_fails_constant_steps`, `Protocol.C92_start_date_partial`, `Protocol.C92_fails_no_saving`, `Protocol.C93_kept_partial`, `Cells.C96_storage`, `Cells.C96_pipe`, `Cells.C96_heated_pipe`, `Topology.C100_names_partial`, `Topology.C101_unique_partial`, `Attempt.C102_heun_partial`, `Attempt.C103_conserved_partial`, `Outliers.C105_far_removed`, `MeterFlow.C113_pipe_partial`, `MeterFlow.C113_pump_partial`, `MeterFlow.C113_outside`, `Modules.C118_fails_default`, `Geometry.C121_fails_last`, `Saving.C140_fails_rows`, `Saving.C140_fails_negative`, `Saving.C140_fails_other_parts`, `Saving.C140_fails_uncompressed`, `Assign.C142_target_partial`, `Assign.C142_written`, `Assign.C142_same_stamps_partial`, `Assign.C142_further_series`, `Assign.C142_fails_subsecond`, `Assign.C143_given_partial`, `Assign.C143_fails_valve_series`, `Assign.C143_fails_mixing_valve`, `Loading.C145_tables`, `Loading.C145_fails_no_vectors`, `Package.C151_safe`, `Package.C151_packaged_partial`, `Package.C151_fails_suffix`, `Package.C151_fails_count`, `PolyReg.C156_fails_empty`, `Controls.C165_starts_partial`, `Controls.C165_completes_partial`, `Controls.C165_fails_inversion`, `ByName.C166_found`, `ByName.C166_reads`, `ByName.C166_fails_all`, `ByName.C166_fails_plain`, `CtrlNet.C177_one_each`, `StoreFiles.C179_kept_partial`, `StoreFiles.C179_complete_partial`, `StoreFiles.C179_folder_partial`, `StoreFiles.C179_fails_again`, `StoreFiles.C179_fails_same_second`, `StoreFiles.C179_fails_folder`, `MeterLife.C181_dated_partial`, `MeterLife.C181_refused_before`, `MeterLife.C181_fails_memory`, `MeterLife.C181_fails_stale`, `Heatmap.C185_alone_partial`, `Heatmap.C185_tight`, `Heatmap.C185_empty`, `Heatmap.C185_fails_scale`, `Heatmap.C185_fails_ends`, `ModelPred.C201_recorded`, `ModelPred.C201_one_row`.
* Axioms: `Classical.choice`, `Quot.sound`, `propext` (790 theorems): `StepControl.C01_solver_call_ends`, `StepControl.C01_solver_call_unique`, `StepControl.C01_raise_after_hundred`, `StepControl.C02_accepted_step_meets_tolerance`, `StepControl.C03_max_stepsize_partial`, `StepControl.C03_fails_first_step`, `StepControl.C04_min_stepsize_partial`, `StepControl.C04_fails_instability`, `StepControl.C04_fails_first_step`, `Attempt.C05_no_trace_partial`, `Attempt.C05_fails_memory`, `Conductance.C05_fails_pipe_remembers`, `StepControl.C06_growth_bound`, `StepControl.C06_growth_limited_partial`, `StepControl.C06_fails_after_recovery`, `TimeLoop.C07_ends_at_timeframe`, `TimeLoop.C07_times_strictly_increasing`, `TimeLoop.C07_terminates`, `TimeLoop.C07_solver_steps_positive`, `TimeLoop.C08_C09_run_result`, `TimeLoop.C08_complete_history_partial`, `TimeLoop.C08_C09_run_result`, `TimeLoop.C09_finalise_partial`, `TimeLoop.C09_fails_full_buffer`, `Timeframe.C10_accepts_iff_partial`, `Timeframe.C10_stored_values_in_range`, `Timeframe.C10_fixed_accepts_iff`, `Timeframe.C10_fails_check_vN`, `Timeframe.C10_fails_small_max_stepsize`, `Registry.C12_port_numbers_dense`, `Registry.C13_connections_symmetric`, `Registry.C13_connections_symmetric_partial`, `Registry.C13_fails_open_port_twice`, `Registry.C14_perfect_pairing`, `Registry.C14_part_port_once_partial`, `Registry.C14_fails_self_connection`, `Registry.C14_fails_open_port_twice`, `Registry.C14_fails_silent_replacement`, `Registry.C15_all_ports_connected`, `Registry.C15_error_names_unconnected`, `Registry.C15_fails_duplicate_port_name`, `Ports.C16_ports_aligned`, `Ports.C16_position_accepted_iff`, `Ports.C16_fails_for_mixed_directions`, `FlowNet.C18_connector`, `FlowNet.C18_connection`, `FlowNet.C18_fails_storage_last_port_from_outside`, `FlowNet.C18_pipe_with_valve`, `Valve.C19_openings_partition`, `Valve.C19_pipe_with_valve_partial`, `Valve.C19_fails_pipe_with_valve`, `Flows.C20_cells_balanced`, `Flows.C20_fails_unsorted`, `Flows.C21_uniform_upwind`, `Cells.C22_conduction_conserves`, `Cells.C23_storage_energy_balance`, `Cells.C23_pipe_energy_balance`, `Cells.C24_storage_no_new_extreme_partial`, `Cells.C24_pipe_no_new_extreme_partial`, `Cells.C24_checked_step_partial`, `Water.C24_water_storage_partial`, `Water.C24_water_pipe_partial`, `Cells.C24_fails_checked_step`, `Stability.C25_reported_step_passes`, `Stability.C25_solver_retry_passes`, `Stability.C25_checks_are_honest`, `StepControl.C26_growth_limit_floor`, `StepControl.C26_simulation`, `DynBC.C27_within_touched_samples`, `DynBC.C27_interpolates`, `DynBC.C27_run`, `DynBC.C27_constant_series`, `DynBC.C28_survives_iff`, `DynBC.C28_long_series_partial`, `DynBC.C28_two_more_samples_partial`, `DynBC.C28_refused_would_fail`, `DynBC.C28_fails_accepted`, `Assign.C142_first_series`, `Mixing.C29_constant_cp_partial`, `Mixing.C29_water_overshoot_partial`, `Mixing.C29_fails_water`, `Mixing.C30_mean_cp_partial`, `Mixing.C30_enthalpy_error_partial`, `Mixing.C30_fails_water`, `Mixing.C31_connector_passes_inflow`, `Mixing.C31_values_in_range`, `PlateHex.C32_energy_balance_partial`, `PlateHex.C32_fails_enthalpy`, `PlateHex.C33_second_law_partial`, `PlateHex.C33_zero_flow`, `PlateHex.C33_fails_at_limit`, `CondHex.C34_water_flow_partial`, `CondHex.C34_fails_negative_flow`, `CondHex.C34_gas_flow`, `CondHex.C34_bypass_mix`, `CondHex.C34_zero_flow`, `CondHex.C34_low_flow`, `Controls.C35_actuator_limits`, `Controls.C35_saturation_slope_partial`, `Controls.C35_fails_start_outside`, `Controls.C36_integral_bounded`, `Controls.C36_velocity_bounded`, `Controls.C37_slope_limit`, `Controls.C37_slope_over_time`, `Controls.C38_hysteresis_partial`, `Controls.C39_fails_inverted`, `Deadtime.C40_range_partial`, `Deadtime.C40_exact_delay`, `Deadtime.C40_controller`, `Deadtime.C40_enough_space`, `Deadtime.C40_fails_long_step`, `Deadtime.C40_fails_short_steps`, `Controls.C41_fails_slope`, `Controls.C42_fails_integral`, `Deadtime.C42_fails_deadtime`, `Chp.C43_min_running_time_partial`, `Chp.C43_min_pause_partial`, `Chp.C43_fails_rejected_attempt`, `Chp.C44_state_zero_or_above_lower`, `Chp.C44_ramp_partial`, `Chp.C44_fails_forced_minimum`, `Chp.C44_fails_rejected_attempt`, `Chp.C45_inlet_temperature_stop`, `Cells.C46_no_false_shutdown`, `Tariff.C47_tiered_tariff`, `Tariff.C47_tiers_add_up`, `Tariff.C47_monotone_continuous`, `Tariff.C47_bounds`, `Tariff.C48_balance`, `ModelPred.C49_nearest`, `ModelPred.C49_plan_partial`, `ModelPred.C49_fails_plan`, `Water.C50_water_bounds`, `Water.C50_enthalpy_slope`, `Water.C50_water_enthalpySlope`, `Water.C50_fails_outside_range`, `Conductance.C51_lambda_mean`, `Conductance.C51_series`, `Conductance.C51_parallel`, `HexNum.C51_numeric`, `Conductance.C52_surface_between`, `Conductance.C52_surface_between_always`, `MovingAvg.C53_window_mean`, `MovingAvg.C53_range`, `MovingAvg.C53_constant`, `MovingAvg.C53_filled`, `MovingAvg.C53_equal_weights`, `MovingAvg.C53_weighted`, `MovingAvg.C53_weighted_filled`, `MovingAvg.C53_fails_weights_not_normalised`, `MovingAvg.C53_fails_outside_domain`, `Meters.C54_sums_partial`, `Meters.C54_positive_counters`, `Meters.C54_positive_sums`, `Meters.C54_power`, `Meters.C54_clock`, `Meters.C54_backward`, `Meters.C54_fails_one_step_ahead`, `Stats.C56_ordering`, `Stats.C56_zero_iff`, `Stats.C56_r_squared`, `Stats.C56_columns_partial`, `Stats.C56_fails_columns`, `Stats.C56_adjusted`, `Stats.C57_well_scaled_partial`, `Stats.C57_within_tolerance`, `Stats.C57_fails_below_zero`, `Stats.C57_fails_negative_tolerance`, `Buffers.C58_ports_follow_results_partial`, `Buffers.C58_flush_keeps_row`, `Buffers.C58_fails_after_enlarging`, `Buffers.C58_fails_shape`, `PidTuning.C59_ziegler_nichols_partial`, `PidTuning.C59_coefficients_exist`, `PidTuning.C59_auto_windup`, `PidTuning.C59_factors`, `PidTuning.C59_manual`, `PidTuning.C59_fails_integral_only`, `PidTuning.C59_fails_explanation`, `Registry.C60_order_irrelevant`, `Registry.C60_built_in_declaration_order`, `StepControl.C61_fails_unstable_corrector_accepted`, `Chp.C62_on_at_start_partial`, `Chp.C62_fails_on_at_start`, `Chp.C63_bounded_by_requests_partial`, `Chp.C63_fails_upper_limit`, `ChpPower.C64_powers_in_range`, `ChpPower.C64_upper_bounds`, `ChpPower.C64_residual_heat`, `ChpPower.C64_pause`, `ChpPower.C65_full_load_partial`, `ChpPower.C65_after_startup_partial`, `ChpPower.C65_during_startup_partial`, `ChpPower.C65_fails_part_load`, `Valve.C66_fails_port_B`, `Valve.C66_fails_initial_opening`, `Reset.C67_fails_pump_flow`, `Cells.C68_heat_arrives`, `CondHex.C69_final_check_partial`, `CondHex.C69_fails_at_limit`, `Controls.C70_invert_partial`, `Tariff.C71_surcharge_partial`, `Tariff.C71_fails_unit`, `Tariff.C72_plan_cost_partial`, `Tariff.C72_cost_standstill`, `Tariff.C72_cost_below_base_load`, `Tariff.C72_cost_surplus`, `Tariff.C72_fails_cut`, `Tariff.C73_selling_price_partial`, `Tariff.C73_fails_markup`, `ModelPred.C74_possible_power_partial`, `ModelPred.C74_fails_upper_limit`, `ModelPred.C74_fails_saturation`, `ModelPred.C75_emergency_on`, `ModelPred.C76_capacities_partial`, `ModelPred.C76_restoring_partial`, `ModelPred.C76_fails_restore`, `ModelPred.C77_constraints_partial`, `ModelPred.C77_fails_first_demand`, `ModelPred.C78_adjusted_plan_partial`, `ModelPred.C78_raised_partial`, `ModelPred.C78_fails_zero_plan`, `ModelPred.C78_fails_unclipped`, `Conductance.C79_coefficients_positive`, `Conductance.C79_below_layers`, `Conductance.C79_first_surface_is_ambient`, `Conductance.C79_lid_nonneg`, `Conductance.C79_fails_first_lid_adiabatic`, `Conductance.C80_fails_parallel_overwrites_first`, `Conductance.C81_wall_split`, `Conductance.C81_no_insulation`, `Conductance.C81_plate_split`, `Conductance.C82_lmtd_between_partial`, `Conductance.C82_fails_balanced`, `HexNum.C83_channel_balance_partial`, `HexNum.C83_steady_ratio_partial`, `HexNum.C83_steady_equal_partial`, `HexNum.C83_fails_one_pass`, `HexNum.C84_total_conductance`, `HexNum.C84_fails_grid`, `HexNum.C85_documented_partial`, `HexNum.C86_steady_between_ports`, `HexNum.C86_water`, `HexNum.C87_first_port_partial`, `HexNum.C87_fails_other_cell`, `HexNum.C87_fails_memory`, `HexNum.C88_no_new_extreme_partial`, `HexNum.C88_fails_checked_step`, `HexNum.C88_fails_thin_wall`, `Controls.C89_discrete_partial`, `Controls.C89_fails_variable_steps`, `Controls.C89_filtered_partial`, `Controls.C89_discrete_pd_partial`, `Controls.C89_discrete_filtered_partial`, `Controls.C89_fails_filter_steps`, `Protocol.C90_fails_no_flow_net`, `Protocol.C91_fails_stale_solver`, `Protocol.C92_fails_late_disksaving`, `Protocol.C93_fails_refused_call`, `NanCheck.C94_goes_on_iff`, `NanCheck.C94_stops_partial`, `NanCheck.C94_fails_temperatures_only`, `NanCheck.C94_fails_between_blocks`, `NanCheck.C94_fails_short_run`, `NanCheck.C95_reset_keeps_timeframe_partial`, `NanCheck.C95_fails_after_stop`, `HexNum.C96_heat_exchanger`, `Mixing.C96_connector`, `Mixing.C96_valves_and_pump`, `PlateHex.C96_plate_heat_exchanger`, `Attempt.C96_solver`, `Topology.C97_has_result`, `Topology.C97_call_ends`, `Topology.C97_no_endless_loop`, `Topology.C97_one_pass`, `Topology.C98_flows_determined_partial`, `Topology.C98_unreached_stuck`, `Topology.C98_fails_open_storage`, `Topology.C99_handed_partial`, `Topology.C99_parts_balanced`, `Topology.C99_circuit_partial`, `Topology.C99_fails_two_valves`, `Topology.C100_fails_name`, `Topology.C101_fails_order`, `Attempt.C102_second_order`, `Attempt.C102_current`, `Attempt.C102_fails_pump`, `Attempt.C103_fails_pump`, `Outliers.C104_few_removed`, `Outliers.C104_far_removed_partial`, `Outliers.C104_units`, `Outliers.C104_fails_short_series`, `Outliers.C104_fails_single`, `Outliers.C105_half_kept`, `Outliers.C105_units`, `Outliers.C105_fails_majority`, `Buoyancy.C106_stratified`, `Buoyancy.C106_factor`, `Buoyancy.C106_mixed_lighter_partial`, `Buoyancy.C106_inversion_mixed`, `Buoyancy.C106_fails_cold_stable`, `Buoyancy.C106_fails_cold_unstable`, `Buoyancy.C107_stronger_partial`, `Buoyancy.C107_fails_transition`, `Attempt.C108_simulation_partial`, `Attempt.C108_storage_partial`, `Attempt.C108_pipe_partial`, `Attempt.C108_fails_checked_pipe`, `PortCond.C109_direct_partial`, `PortCond.C109_pump_partial`, `PortCond.C109_idle_partial`, `PortCond.C109_disabled`, `PortCond.C109_fails_sizes`, `PortCond.C109_fails_split`, `PortCond.C109_fails_chain`, `PortCond.C110_order_partial`, `PortCond.C110_again_partial`, `PortCond.C110_fails_order`, `PortCond.C110_fails_again`, `PortCond.C110_fails_boundary`, `PortCond.C111_plant_partial`, `PortCond.C111_pumps_partial`, `PortCond.C111_step_partial`, `Cells.C112_storage_partial`, `Cells.C112_pipe_partial`, `HexNum.C112_hex_partial`, `Attempt.C112_simulation_partial`, `Attempt.C112_fails_heater`, `MeterFlow.C113_valve_partial`, `MeterFlow.C113_storage_partial`, `MeterFlow.C113_supply_partial`, `MeterFlow.C113_water_partial`, `MeterFlow.C113_fails_demand`, `MeterFlow.C113_fails_gas`, `MeterFlow.C113_fails_plate`, `MeterFlow.C113_fails_connector`, `Resample.C114_range_partial`, `Resample.C114_monotone_partial`, `Resample.C114_total_partial`, `Resample.C114_fails_uneven`, `Resample.C114_fails_incomplete`, `Resample.C114_fails_not_divisor`, `Resample.C114_fails_counter`, `Resample.C114_fails_ahead`, `Modules.C115_accepted_partial`, `Modules.C115_channels_partial`, `Modules.C115_fails_flow`, `Modules.C115_fails_area`, `PipeSpecs.C116_geometry_partial`, `PipeSpecs.C116_accepts_partial`, `PipeSpecs.C116_ends_partial`, `PipeSpecs.C116_fails_type`, `PipeSpecs.C116_fails_erased`, `Modules.C117_builds_partial`, `Modules.C117_fails_el`, `Modules.C118_names_partial`, `Geometry.C120_pipe_partial`, `Geometry.C120_storage_partial`, `Geometry.C120_positions_partial`, `Geometry.C120_fails_shell`, `Geometry.C120_fails_volume`, `Geometry.C120_fails_lids`, `Geometry.C120_fails_insulation`, `Geometry.C121_power_partial`, `Geometry.C122_all_partial`, `Geometry.C122_each_partial`, `Geometry.C122_fails_table`, `HexGeo.C123_areas_partial`, `HexGeo.C123_totals`, `HexGeo.C123_total_numeric`, `HexGeo.C123_mass_partial`, `HexGeo.C123_fails_ports`, `HexGeo.C123_fails_back`, `HexGeo.C123_fails_mass_base`, `HexGeo.C123_fails_thickness`, `HexGeo.C123_fails_depth`, `HexGeo.C123_fails_total`, `NormErr.C124_units_partial`, `NormErr.C124_divisors`, `NormErr.C124_fails_mse`, `NormErr.C124_fails_zero`, `NormErr.C124_fails_negative`, `FlowAlpha.C125_more_flow`, `FlowAlpha.C125_losses`, `FlowAlpha.C125_wall`, `FlowAlpha.C125_distance`, `FlowAlpha.C126_more_flow_partial`, `FlowAlpha.C126_value_partial`, `FlowAlpha.C126_wall`, `FlowAlpha.C126_fails_short`, `FlowAlpha.C126_fails_correction`, `PlatePower.C127_supply_partial`, `PlatePower.C127_demand_partial`, `PlatePower.C127_fails_limit`, `HotSurface.C128_cylinder`, `HotSurface.C128_horizontal_partial`, `HotSurface.C128_fails_horizontal`, `Attempt.C129_converges_partial`, `Attempt.C129_second_order_partial`, `Attempt.C129_smooth_partial`, `Attempt.C129_water_pipe_partial`, `Attempt.C129_linear_partial`, `Attempt.C129_fails_second_order`, `Attempt.C130_approaches_partial`, `Attempt.C130_forgets_partial`, `Attempt.C130_unique_partial`, `Cells.C130_storage_partial`, `Cells.C130_pipe_partial`, `Cells.C131_pipe`, `Cells.C131_storage`, `Cells.C131_fails_check`, `FlowAlpha.C131_losses`, `Attempt.C131_simulation_partial`, `Cells.C132_pipe_partial`, `FlowAlpha.C132_losses_rest`, `FlowAlpha.C132_fails_losses`, `Attempt.C132_simulation_partial`, `Perf.C133_measures_partial`, `Perf.C133_one_zero_partial`, `Perf.C133_fails_r2`, `Perf.C133_fails_zeros`, `Perf.C133_fails_index`, `Perf.C133_lengths`, `Attempt.C134_same_steps_partial`, `StepControl.C134_fails_tolerance`, `StepControl.C135_within_partial`, `StepControl.C135_bound_partial`, `StepControl.C135_fails_cell`, `StepControl.C135_fails_hexnum`, `Attempt.C136_simulation_partial`, `StepControl.C136_error_partial`, `StepControl.C136_fails_order`, `Plan.C137_schedule_partial`, `Plan.C137_rows`, `Resample.C137_profile_partial`, `Plan.C137_fails_long_steps`, `Plan.C137_fails_reset`, `Resample.C137_fails_begin`, `Sensor.C138_index`, `Sensor.C138_pipe`, `Sensor.C138_valves`, `Sensor.C138_added_partial`, `Sensor.C138_valve`, `Sensor.C138_fails_name`, `Sensor.C138_fails_hexnum`, `HexNum.C139_between`, `HexNum.C139_water`, `HexNum.C139_energy`, `HexNum.C139_solvable`, `HexNum.C139_step_partial`, `HexNum.C139_fails_unsolved`, `Saving.C140_saved_partial`, `Saving.C140_fails_heat_exchanger`, `Saving.C140_fails_refused`, `Saving.C141_parts_partial`, `Saving.C141_vectors`, `Saving.C141_meters_partial`, `Saving.C141_fails_part_meters`, `Saving.C141_fails_part_vectors`, `Saving.C141_fails_name`, `Saving.C141_fails_slash`, `Assign.C142_first_series`, `Assign.C142_fails_minus_one`, `Assign.C143_fails_range`, `TimeLoop.C144_disk_partial`, `TimeLoop.C144_memory_partial`, `TimeLoop.C144_fails_enlarged`, `Loading.C145_loads_partial`, `Loading.C145_joined_partial`, `Loading.C145_fails_name`, `Loading.C145_fails_only_vectors`, `Cells.C146_stays_partial`, `Cells.C146_fails_lid`, `Chp.C147_cycle_partial`, `Chp.C147_pause_partial`, `Chp.C147_fails_rejected_attempt`, `Outliers.C148_spike_partial`, `Outliers.C148_constant_partial`, `Outliers.C148_units`, `Outliers.C148_fails_ramp`, `Outliers.C148_fails_alternating`, `FlowLength.C149_pipe_partial`, `FlowLength.C149_lid_partial`, `FlowLength.C149_fails_storage`, `FlowLength.steady_exists`, `RollCentered.C150_multiple_partial`, `RollCentered.C150_periods`, `RollCentered.C150_periods_other`, `RollCentered.C150_fails_lag`, `RollCentered.C150_fails_end`, `RollCentered.C150_fails_short`, `Package.C151_fails_log`, `RootFind.C152_linear_partial`, `RootFind.C152_newton_partial`, `RootFind.C152_newton_goes_on_partial`, `RootFind.C152_small_partial`, `RootFind.C152_near_partial`, `RootFind.C152_fails_flat`, `RootFind.C152_fails_maxiter`, `RootFind.C152_fails_coupled`, `RootFind.C152_fails_mirror`, `RootFind.C152_fails_end`, `RootFind.C152_fails_tolerance`, `Cells.C153_cools_partial`, `Cells.C153_strict_partial`, `Cells.C153_backward_partial`, `Cells.C153_faster_partial`, `Cells.C153_fails_neighbour`, `Water.C153_water_partial`, `FlowIndex.C154_storage_partial`, `FlowIndex.C154_branched_partial`, `FlowIndex.C154_other`, `FlowIndex.C154_fails_no_ports`, `FlowIndex.C154_fails_name`, `ReCorr.C155_point`, `ReCorr.C155_zero`, `ReCorr.C155_unique_partial`, `ReCorr.C155_evaluated`, `ReCorr.C155_fails_gap`, `ReCorr.C155_fails_negative`, `ReCorr.C155_fails_numeric`, `ReCorr.C155_fails_temperatures`, `PolyReg.C156_features`, `PolyReg.C156_prediction`, `PolyReg.C156_polynomial`, `PolyReg.C156_complete`, `PolyReg.C156_hex`, `Fit.C157_forward`, `Fit.C157_backward`, `Fit.C157_compare_partial`, `Fit.C157_fails_shifted`, `Fit.C157_fails_disjoint`, `Fit.C157_fails_gap`, `Maint.C158_discount`, `Maint.C158_prices_partial`, `Maint.C158_rising_partial`, `Maint.C158_perkWh_partial`, `Maint.C158_fails_falling`, `Maint.C158_fails_negative`, `Maint.C158_fails_jump`, `Report.C159_counters_partial`, `Report.C159_fails_steps_mean`, `Report.C159_fails_mean_iff`, `Report.C159_fails_success`, `Report.C159_fails_lost`, `Report.C159_fails_no_report`, `Controls.C160_rest_continuous_partial`, `Controls.C160_rest_discrete_partial`, `Controls.C160_acts_up_partial`, `Controls.C160_acts_down_partial`, `Controls.C160_acts_discrete_partial`, `Controls.C160_fails_windup`, `Controls.C160_fails_discrete`, `Cells.C161_near_exact`, `Cells.C161_refining`, `Controls.C162_stays_partial`, `Controls.C162_reaches_partial`, `Controls.C162_switching_partial`, `Controls.C162_fails_inverted`, `Controls.C162_fails_slope`, `Air.C163_pressure`, `Air.C163_water_pos`, `Air.C163_water_rises_partial`, `Air.C163_fails_cold`, `Air.C163_agree_partial`, `Air.C163_fails_agree`, `Air.C163_dry`, `Air.C163_ideal_gas`, `Water.C164_rho_falls`, `Water.C164_rho_rises`, `Water.C164_lam_rises`, `Water.C164_ny_falls_partial`, `Water.C164_fails_viscosity`, `Water.C164_Pr_falls`, `Water.C164_beta`, `Water.C164_Pr_fits_partial`, `Water.C164_fails_Pr`, `Water.C164_beta_fits_partial`, `Water.C164_fails_sign`, `Controls.C165_switching_partial`, `Controls.C165_fails_order`, `ByName.C166_number`, `ByName.C166_complete_partial`, `ByName.C166_fails_identifier`, `ByName.C166_database_partial`, `ByName.C166_fails_which`, `ByName.C166_fails_path`, `ByName.C166_fails_separator`, `Idle.C167_evens_out_partial`, `Idle.C167_limit_partial`, `Idle.C167_fails_long_step`, `Idle.C167_fails_capacity`, `Label.C168_label_partial`, `Label.C168_refused`, `Label.C168_percent`, `Label.C168_no_unit`, `Label.C168_fails_dollar`, `Label.C168_fails_empty`, `Label.C168_number`, `Label.C168_order`, `Label.C168_fails_sign`, `Arrival.C169_arrival_partial`, `Arrival.C169_fails_long_step`, `Arrival.C170_charged_partial`, `SecondLaw.C171_storage_partial`, `SecondLaw.C171_pipe_partial`, `SecondLaw.C171_simulation_partial`, `SecondLaw.C171_entropy_partial`, `SecondLaw.C171_fails_long_step`, `PortCond.C172_pumps_partial`, `PortCond.C172_step_partial`, `PortCond.C172_entropy_partial`, `Stability.C173_part_partial`, `Stability.C173_mass_partial`, `Stability.C173_hex_partial`, `Stability.C173_fails_lighter_cell`, `HexNum.C174_steady_channels_partial`, `HexNum.C174_steady_partial`, `HexNum.C174_entropy_partial`, `HexNum.C174_step_partial`, `HexNum.C174_solver_step_partial`, `HexNum.C174_fails_one_pass`, `Plan.C175_stats_partial`, `Plan.C175_plans_partial`, `Plan.C175_adjusted_partial`, `Plan.C175_soc_partial`, `Plan.C175_status_partial`, `Plan.C175_fails_emergency`, `Plan.C175_fails_single`, `Plan.C175_fails_invented`, `Meters.C176_difference`, `Meters.C176_constant`, `Meters.C176_water_partial`, `Meters.C176_fails_hot`, `CtrlNet.C177_masters`, `CtrlNet.C177_master_part`, `CtrlNet.C177_reference_partial`, `CtrlNet.C177_fails_linked`, `ModuleCtrl.C178_added_partial`, `ModuleCtrl.C178_fails_el`, `ModuleCtrl.C178_fails_older`, `BcSeries.C180_returned_partial`, `BcSeries.C180_accepted`, `BcSeries.C180_times_partial`, `BcSeries.C180_fails_fitting`, `BcSeries.C180_fails_single`, `BcSeries.C180_fails_pandas`, `BcSeries.C180_fails_drift`, `PlateCount.C182_channels`, `PlateCount.C182_one_pass_partial`, `PlateCount.C182_fails_passes`, `ValPlot.C183_scatter`, `ValPlot.C183_given`, `ValPlot.C183_inside`, `ValPlot.C183_points`, `ValPlot.C183_density_partial`, `ValPlot.C183_fails_bias`, `ValPlot.C183_fails_variation`, `ValPlot.C183_fails_determination`, `PredPlot.C184_scatter_partial`, `PredPlot.C184_density_partial`, `PredPlot.C184_best`, `PredPlot.C184_fails_other`, `PredPlot.C184_fails_hexbin`, `PredPlot.C184_fails_determination`, `PredPlot.C184_fails_line`, `Heatmap.C185_values`, `PlateHex.C186_turn_supply`, `PlateHex.C186_turn_demand`, `PlateHex.C186_sides_partial`, `PlateHex.C186_sides_close_partial`, `PlateHex.C186_fails_limit`, `PlateHex.C187_mean_partial`, `PlateHex.C187_function_partial`, `PlateHex.C187_parallel`, `PlateHex.C187_cut_partial`, `PlateHex.C33_fails_at_limit`, `PlateCount.C188_plates_partial`, `PlateCount.C188_fails_plates`, `Conductance.C189_material`, `Conductance.C189_thickness_partial`, `Conductance.C189_fails_thin`, `Conductance.C189_plane`, `MixControl.C190_hotter`, `MixControl.C190_reach_partial`, `MixControl.C190_water_partial`, `MixControl.C190_fails_open`, `MixControl.C190_fails_cold`, `MixOrder.C191_commute`, `MixOrder.C191_order_partial`, `MixOrder.C191_water_partial`, `MixOrder.C191_fails_water`, `Overheat.C192_step_partial`, `Overheat.C192_simulation_partial`, `Overheat.C192_fails_limit`, `Cells.C193_balance`, `Cells.C193_rise_partial`, `Cells.C193_water_partial`, `Cells.C193_fails_water`, `Tariff.C194_gas`, `Tariff.C194_exchange`, `Tariff.C194_electricity`, `Tariff.C194_penalty`, `Tariff.C194_refunds`, `Tariff.C194_upkeep`, `Tariff.C195_hour_by_hour`, `Tariff.C196_shape_partial`, `Tariff.C196_local_partial`, `Tariff.C196_fails_prices`, `Tariff.C196_fails_standstill`, `Tariff.C197_plan_partial`, `Tariff.C196_fails_standstill`, `Tariff.C196_fails_prices`, `Preopt.C198_result`, `Preopt.C198_kept`, `Preopt.C198_range`, `Preopt.C198_modulation_partial`, `Preopt.C198_fails_gives_up`, `Preopt.C198_fails_modulation`, `Cells.C199_pipe`, `Cells.C199_storage`, `Cells.C199_heater`, `Cells.C199_chp`, `HexNum.C199_hex`, `HexNum.C199_hex_check`, `Stability.C199_check`, `Stability.C199_check_hex`, `Cells.C200_pipe_partial`, `Cells.C200_storage_partial`, `Cells.C200_heater_partial`, `Cells.C200_chp_partial`, `Cells.C200_fails_material`, `HexNum.C200_hex_partial`, `ModelPred.C201_stored_partial`, `ModelPred.C201_fails_same_time`, `Cells.C202_rate_storage`, `Cells.C202_rate_pipe`, `Cells.C202_hotter_partial`, `Cells.C202_pipe_partial`, `Tariff.C203_admits`, `Tariff.C203_larger`, `Tariff.C203_emergency`, `Tariff.C203_freedom`, `Tariff.C203_no_storage`, `Tariff.C204_cost`, `Tariff.C204_constraints_partial`, `Tariff.C204_fails_first_step`, `Cells.C205_rate`, `Cells.C205_hotter_partial`, `Cells.C205_chp_partial`, `Cells.C205_fails_shutdown`, `PlateHex.C206_superposition`, `PlateHex.C206_shift`, `PlateHex.C206_proportional`, `PlateHex.C206_monotone_partial`, `PlateHex.C206_fails_limit`, `Controls.C207_pi_partial`, `Controls.C207_bang_partial`, `Controls.C207_two_partial`, `Controls.C207_fails_derivative`, `Controls.C207_fails_discrete`, `Controls.C207_fails_inverted`, `Controls.C208_pi_partial`, `Controls.C208_bang_partial`, `Controls.C208_two_partial`, `Controls.C208_fails_derivative`, `Controls.C208_fails_discrete`, `Controls.C209_forgets_partial`, `Controls.C209_fails_unlimited`, `Topology.C210_superposition_partial`, `Topology.C210_proportional_partial`, `Topology.C210_standstill_partial`, `Chp.C211_division_partial`, `Chp.C211_arrival_partial`, `Chp.C211_fails_start`, `Meters.C212_branches`, `Meters.C212_positive_partial`, `Meters.C212_sections_partial`, `Meters.C212_fails_opposite`, `Meters.C212_fails_sections`, `Tariff.C213_own_use_first`, `Tariff.C213_more_power`, `Tariff.C213_degressive`, `Tariff.C213_two_plants`, `Tariff.C213_own_use_half`, `Controls.C214_units`, `Controls.C214_tuning`, `Mixing.C215_ports`, `Mixing.C215_scale`, `Mixing.C215_valve`.

## 6. Where the code disagrees with a property

Each entry is a proved theorem (`…_fails…`): the English claim of the property is false of the modelled code.
The text is the comment beside the theorem.

* **C03** No step is longer than max_stepsize (simenv.py:355-422, simenv.py:4156-4188)
  * `StepControl.C03_fails_first_step`: **C03 is false of the code**: with `max_stepsize = 0.5` (accepted by `set_timeframe`) the first step is 1 s long, because `_new_step` is always started at 1 (`simenv.py:421`).
* **C04** No step is shorter than min_stepsize (simenv.py:4195-4242)
  * `StepControl.C04_fails_instability`: **C04 is false of the code** when a stability check asks for a shorter step: the step chosen after a stability violation is not compared with `min_stepsize` (`simenv.py:4234`).
  * `StepControl.C04_fails_first_step`: **C04 is false of the code** for `min_stepsize > 1`: the first step is 1 s long.
* **C05** Rejected attempts leave no trace in the computed solution (simenv.py:3953, simenv.py:3974-3992)
  * `Attempt.C05_fails_memory`: C05 fails for parts with memory: a part which counts its evaluations and uses the count.
  * `Conductance.C05_fails_pipe_remembers`: C05 fails for every pipe: the surface temperature is computed from the coefficients of the previous evaluation, rejected or not. One rejected evaluation before the accepted one, with the same water and ambient temperatures and warm water, gives a larger conductance to the ambient than the accepted evaluation alone.
* **C06** Step growth is limited by max_factor (simenv.py:301-304, simenv.py:4156-4166)
  * `StepControl.C06_fails_after_recovery`: **C06 is false of the code.** With the default options and `max_factor = 2`, after 100 successful steps a step of 20 s is followed by one of 100 s: the factor `(n / factor_recovery)²` is applied after the limit by `max_factor` (`simenv.py:4156-4166`).
* **C09** A finished run can be finalised (simenv.py:5086-5091, simenv.py:4881-4882)
  * `TimeLoop.C09_fails_full_buffer`: **C09 is false of the code**: with disk saving, every run that ends exactly when the buffer is full fails with an index error when the results are finalised, for every buffer size (`simenv.py:5086-5091` skips the flush, then `4882` reads row `num_steps + 1`).
* **C10** set_timeframe accepts exactly the documented solver options (simenv.py:243-453)
  * `Timeframe.C10_fails_check_vN`: **C10 fails**: the documented option `check_vN` can never be given. Whatever value (also `True` or `False`) is passed, and however correct the other options are, a `TypeError` is raised.
  * `Timeframe.C10_fails_small_max_stepsize`: **C10 fails**: `max_stepsize=1e-9, min_stepsize=1e-10` is in the documented ranges (`0 < min_stepsize < max_stepsize`) but refused.
* **C11** Registered part names are unique and a rejected part changes nothing (simenv.py:691-772, simenv.py:5689-5718)
  * `Registry.C11_fails_store_results`: The setting of the first part is lost although the second part is refused.
* **C13** Port connection is symmetric (simenv.py:1944-2143)
  * `Registry.C13_fails_open_port_twice`: Without controls an open port may be used twice; then the tables are not symmetric.
* **C14** A port has at most one partner (simenv.py:1897-2143)
  * `Registry.C14_fails_self_connection`: Without controls a port can be connected to itself.
  * `Registry.C14_fails_open_port_twice`: Without controls one open port can be connected to two ports.
  * `Registry.C14_fails_silent_replacement`: Even with a control, a second `connect_ports` call with the same first port is not refused: it replaces the first call without any message.
* **C15** A simulation is only built when every port is connected (simenv.py:2145-2165)
  * `Registry.C15_fails_duplicate_port_name`: If a part is given two ports of the same name, the second one never gets a partner, and the check does not notice: the ports 1 and 2 of the pipe are called `in`, `in`; port number 1 stays at its initial entry 0 although port 0 is linked to port 2. This is why `C15_all_ports_connected` assumes sensible names.
* **C16** Additional ports keep names, cells and flow directions aligned (simenv.py:902-1084)
  * `Ports.C16_fails_for_mixed_directions`: The direction marks are appended at the end and not inserted with the name. Parts whose ports do not all face inwards would get wrong directions: this is why the hypothesis on the marks in `C16_ports_aligned` is needed. A plain pipe claims `can_add_ports` but never adds ports.
* **C18** Mass is conserved at connectors, storages and valves (parts/connector_3w.py:262-401, parts/mixingvalve.py:416-613)
  * `FlowNet.C18_fails_storage_last_port_from_outside`: If the last port of a storage is reached from outside (the code prefers this), its flow is passed on from there and nothing forces the balance: here 1 kg/s enters at each of two ports.
* **C19** Valve openings are a partition of one within the limits (parts/mixingvalve.py:273-321, parts/mixingvalve.py:404-414)
  * `Valve.C19_fails_pipe_with_valve`: The pipe with valve accepts limits outside 0..1: the controller can then open port A to 200 % and port B to -100 %.
* **C20** Flow inside a storage obeys the mass balance of every cell (precomp_funs.py:159-205)
  * `Flows.C20_fails_unsorted`: The sort order of the port table matters: with an unsorted table flow disappears.
* **C24** A stable explicit step creates no new temperature extremes (precomp_funs.py:1031-1234, precomp_funs.py:640-757)
  * `Cells.C24_fails_checked_step`: is false of the code: the stability check accepts a step of half a second for a perfectly insulated pipe with a hot cell between two cold ones and cold water flowing in, and after the step the hot cell is colder (-100) than anything around it (0).
* **C28** An accepted boundary condition series outlasts the simulation (simenv.py:1330-1558, simenv.py:2717-2763)
  * `DynBC.C28_fails_accepted`: is false of the code, even if the simulation ends exactly at the time frame: two hourly samples are accepted for a time frame of one and a half hours, and the update after the last step fails.
* **C29** Mixing yields a temperature between the inlet temperatures (precomp_funs.py:3274-3347, precomp_funs.py:3585-3613)
  * `Mixing.C29_fails_water`: is false of the code: mixing 1 kg/s at 90 degrees with 1 g/s at 10 degrees gives more than 90.4 degrees, in a connector as well as in a mixing valve.
* **C30** Mixing conserves enthalpy (precomp_funs.py:3274-3347, precomp_funs.py:3585-3613)
  * `Mixing.C30_fails_water`: is false of the code: with 1 kg/s at 90 degrees and 1 g/s at 10 degrees more than half a percent of the enthalpy appears out of nothing (the comment at `precomp_funs.py:3300` promises much less).
* **C32** Plate heat exchanger: energy balance (precomp_funs.py:3358-3558)
  * `PlateHex.C32_fails_enthalpy`: is false of the code in terms of the enthalpies that the neighbouring parts account for: with 10 kg/s of supply water at 90 degrees and 1 kg/s of demand water at 10 degrees the supply side loses more than one percent more than the demand side receives.
* **C33** Plate heat exchanger: second law (precomp_funs.py:3358-3558)
  * `PlateHex.C33_fails_at_limit`: is false of the code when `(R - 1) * NTU` is exactly 100: the demand water leaves with 3050 degrees between inlets of 80 and 20 degrees.
* **C34** Condensing heat exchanger: flow limits and bypass (precomp_funs.py:2820-2992)
  * `CondHex.C34_fails_negative_flow`: is false of the code for a negative water flow: with -100 percent the characteristic is evaluated far outside the range, and water that should leave with 60 degrees leaves with 3690 degrees.
* **C35** Controller output stays in its saturation and the actuator in its limits (parts/controllers.py:375-494, controls.py:841-926)
  * `Controls.C35_fails_start_outside`: is false of the code with a slope limit: a controller with the saturation limits 0.5 and 1 that has never been switched off has the control value 0.1 after the first call.
* **C38** Bang-bang control keeps its state inside the hysteresis band (parts/controllers.py:497-552, controls.py:928-930)
  * `Controls.C38_fails_inverted`: is false of the code for an inverted bang-bang controller: with the temperature constantly inside the band its control value changes sign in every call.
* **C39** Two-sensor control: switching off has priority (parts/controllers.py:555-658)
  * `Controls.C39_fails_inverted`: is false of the code for an inverted two-sensor controller: it does not keep its output.
* **C40** A dead time delays the process value by exactly that time (precomp_funs.py:3654-3729, controls.py:705-712)
  * `Deadtime.C40_fails_long_step`: is false of the code for a step longer than the dead time: it extrapolates. With a dead time of 1 s, a step of 10 s and a process value that has been 60 degrees throughout, the controller sees 375 degrees.
  * `Deadtime.C40_fails_short_steps`: is false of the code for many short steps: with a dead time of 0.1 s and steps of 0.005 s the code reads beyond the end of its arrays in call 11.
  * `Deadtime.C40_fails_switching`: is false of the code for bang-bang and two-sensor controllers: they compare the current process value; the error formed with the delayed one has no influence on them.
* **C41** Dependent controllers follow their master (controls.py:932-950, controls.py:895-905)
  * `Controls.C41_fails_slope`: is false of the code with a slope limit: one call after the master has gone to its off state the dependent controller is still at 90 percent.
* **C42** Resetting a controller restores its initial behaviour (parts/controllers.py:366-373, controls.py:816-839)
  * `Controls.C42_fails_integral`: is false of the code for a continuous time PID controller: `i_term` is not reset, and the first call copies it to `prev_i_term`, so the integral of the run before continues.
  * `Deadtime.C42_fails_deadtime`: is false of the code for controllers with a dead time: the recorded values survive the reset. A proportional controller with a dead time of 1 s that saw 60 degrees before the reset first reacts to those 60 degrees, a new one to the initial value 25.
* **C43** CHP plant: minimum running and pause times (parts/chp_plant.py:675-774, precomp_funs.py:5787-5995)
  * `Chp.C43_fails_rejected_attempt`: **C43 fails** if the first attempt of a step is rejected: switched on at 1 s, then a first attempt of 600 s (rejected, 1 s is accepted in the end) with request 0. The plant is off at 2 s although the minimum running time is 600 s and no temperature is too high.
* **C44** CHP plant: power range and ramp limit (parts/chp_plant.py:675-774, precomp_funs.py:5787-5995)
  * `Chp.C44_fails_forced_minimum`: **C44 fails** (ramp): a running plant at full power is taken to the lower limit in one step of 1 s if it is asked to stop before its minimum running time.
  * `Chp.C44_fails_rejected_attempt`: **C44 fails** (ramp): a rejected first attempt of 10 s allows a change of half the power in 1 s.
* **C49** The modulation returned by the predictive controller is technically possible (parts/controllers.py:1929-2015)
  * `ModelPred.C49_fails_plan`: is false of the clipped plan: with modulation limits of 60 % and 100 % the entry 59.5 % becomes 50 %.
* **C50** Water properties are physical between 0 and 100 degC (precomp_funs.py:3954-4142)
  * `Water.C50_fails_outside_range`: Outside the fitted range the polynomials are not physical: the code does not clip temperatures, and at 400 degrees the conductivity is negative.
* **C53** The moving average is the arithmetic mean of its window (precomp_funs.py:5379-5434)
  * `MovingAvg.C53_fails_weights_not_normalised`: C53 does not extend to arbitrary weights: they are not normalised, so a constant series changes.
  * `MovingAvg.C53_fails_outside_domain`: C53 fails for a window of length 0 (an error) and is empty-handed for windows longer than the series: there is no value with which the edges could be filled.
* **C54** Heat meters integrate the recorded flows (_utility/meters.py:70-207, simenv.py:4947-4952)
  * `Meters.C54_fails_one_step_ahead`: C54 fails: a meter over a constant flow of 1 kg/s recorded at 0, 1 and 2 s (3 rows) shows 3 kg after 2 s, and 1 kg already at time 0.
* **C55** Meter names are unique per meter kind (_utility/meters.py:252-332)
  * `Meters.C55_fails_volumeflow_replaced`: C55 fails for volume flow meters: a second one of the same name replaces the first.
  * `Meters.C55_fails_volumeflow_refused`: C55 fails for volume flow meters: one is refused because a mass flow meter has the name.
  * `Meters.C55_fails`: 
  * `Meters.C55_fails_disk_shared`: C55 fails on disk: the store has one table per name, so a meter of another kind replaces the first table there although both are kept in memory.
* **C56** Error measures are consistent (_utility/stat_error_measures.py:12-268)
  * `Stats.C56_fails_columns`: C56 fails for two observed columns: the coefficients are 0 and 0, reported are 1/2 and 1/2.
* **C57** The error estimate of the corrector step is well scaled (precomp_funs.py:3733-3782)
  * `Stats.C57_fails_below_zero`: C57 fails for water just below 0 degC: with the default tolerances and a cell at -0.001 degC the scale is zero.
  * `Stats.C57_fails_negative_tolerance`: C57 fails in kind below that: the tolerance is negative for every colder cell, and a deviation is accepted that grows with the cold: at -20 degC the error of a cell counts as small as at +20 degC.
* **C58** Enlarging the buffers in memory keeps ports connected to the results (simenv.py:5287-5322, simenv.py:4738)
  * `Buffers.C58_fails_after_enlarging`: C58 fails for every system: once the buffers have been enlarged, whatever is computed and written afterwards, the updater reads outside of the array it holds for every step beyond the first buffer.
  * `Buffers.C58_fails_shape`: **C58, systems with heat exchangers.** Enlarging the buffers succeeds if and only if the results of every part have exactly one row of cells per step; then every buffer has grown by `base` rows. A system with a numeric or condensing heat exchanger (results with three dimensions) stops with an error instead of enlarging its buffers.
  * `Buffers.C58_fails`: 
* **C59** Ziegler-Nichols tuning gives usable PID coefficients (parts/controllers.py:15-365)
  * `PidTuning.C59_fails_integral_only`: is false of the code for the type `I`: it is accepted, with any tuning, but has no coefficients; its first call ends with an `AttributeError`.
  * `PidTuning.C59_fails_explanation`: The explanation of the rules in the error message (`controllers.py:176-190`) is false: the Pessen rule has the higher, not the lower integral coefficient, and for the two rules with less overshoot neither is the integral coefficient unchanged nor the derivative coefficient 2.64 times the classic one.
* **C61** An accepted step passed every stability check made while computing it (simenv.py:4028-4049)
  * `StepControl.C61_fails_unstable_corrector_accepted`: **C61 is false of the code**: a step is accepted although a stability check failed while it was computed, because the corrector does not look at the flag (`simenv.py:4028-4049`).
* **C62** A CHP plant declared running at the start keeps running (parts/chp_plant.py:286-308, parts/chp_plant.py:561-565)
  * `Chp.C62_fails_on_at_start`: **C62 fails**: a plant that is declared to run at the start (`chp_on_at_start=True`), is asked for full power and is cool is nevertheless off after the first step, and stays off, if its minimum pause exceeds its minimum running time by more than a second and the step length.
* **C63** A CHP plant never runs above its modulation range (parts/chp_plant.py:214-226, parts/chp_plant.py:685-774)
  * `Chp.C63_fails_upper_limit`: **C63 fails**: the upper end of `modulation_range` is not respected. For every parameter set and every start there is a history in which the plant runs at full power although its range ends below.
* **C65** A CHP plant never delivers more energy than it takes in (parts/chp_plant.py:127-190, parts/chp_plant.py:857-880)
  * `ChpPower.C65_fails_part_load`: **C65 fails** at part load: a plant with efficiency parameters that the constructor accepts delivers, at a modulation of 10 % after its start-up, more electricity and heat than it takes in as gas.
* **C66** Accepted valve limits never let a flow routine divide by zero (simenv.py:2431-2481, parts/mixingvalve.py:244-403)
  * `Valve.C66_fails_port_B`: The check looks at the limits of port A only. If the flow is calculated from port B, its opening `1 - upper_limit` may be zero although the check passed.
  * `Valve.C66_fails_initial_opening`: The check ignores the initial opening.
* **C67** A reset restores the initial conditions of the parts (simenv.py:4782-4802, parts/pipe.py:499-501,547-562)
  * `Reset.C67_fails_pump_flow`: A pump with constant flow, followed by a pipe: after the reset the pump stands still.
  * `Reset.C67_fails_pipe_with_pump`: A pipe with pump always loses its start flow: it inherits the reset of the pipe.
  * `Reset.C67_fails_not_reset`: Temperatures of connectors, pumps and valves survive the reset, and so do the openings of a pipe with valve.
* **C69** A run accepted step by step passes the final check of the condensing heat exchanger (parts/hex_condensing_polynome.py:564-579, precomp_funs.py:2820-2992)
  * `CondHex.C69_fails_at_limit`: is false of the code at the upper limit.
* **C70** Inverting a controller reverses its action (parts/controllers.py:375-494, controls.py:928-930)
  * `Controls.C70_fails_discrete`: is false of the code for a discrete time PID controller: inverted or not, it gives the same.
* **C71** Own use of CHP electricity is charged with the documented surcharge (parts/controllers.py:2757-2818, parts/controllers.py:2386-2400)
  * `Tariff.C71_fails_unit`: is false of the cost functions: they pass the power in W, so every plant of at least 100 W is charged with the full surcharge for the whole production, while up to 10 kW nothing would be due for own use.
* **C72** The cost of a plan is the sum of the costs of its steps (parts/controllers.py:2202-2429, parts/controllers.py:2432-2632)
  * `Tariff.C72_fails_cut`: is false of the code for other plans: an entry between 0 and 60 % of the lower limit is set to zero and an entry above the upper limit to 1, in the array of the caller, and the cost is that of the changed plan.
* **C73** Electricity is sold at the configured price (parts/controllers.py:2361-2417, parts/controllers.py:1177-1181)
  * `Tariff.C73_fails_markup`: is false of the code for every other setting: `aufschlag_verkauf` has no influence on the cost of any plan.
* **C74** The predictive controller only asks for possible powers (parts/controllers.py:1666-1755, parts/controllers.py:2102-2161)
  * `ModelPred.C74_fails_upper_limit`: is false of the code for the upper limit: with limits of 50 % and 80 % the plan is clipped to 1 and the plant is asked for 86.7 %.
  * `ModelPred.C74_fails_saturation`: is false of the code for a lower saturation above 0: with a saturation of 50 % to 100 % the plant is never switched off, neither by the plan nor by the emergency control.
* **C76** Adapted storage capacities return to their original values (parts/controllers.py:1757-1783, parts/controllers.py:2028-2059)
  * `ModelPred.C76_fails_restore`: is false of the code: once the restore time has passed for both capacities, the last partially restored values stay. Here the storage was adapted at time 0 from 10 to 30 kWh, the restore time is one day; one optimisation after 23 h, the next ones after two days: the capacity stays at 10.83 kWh.
* **C77** The storage constraints of the optimisation are the energy balance of the storage (parts/controllers.py:1600-1664, parts/controllers.py:1805-1813)
  * `ModelPred.C77_fails_first_demand`: is false of the code: 10 kWh above the minimum, a demand of 8 kWh in each of two steps and no production empty the storage in the second step; the constraint still reports 2 kWh.
* **C78** Adjusting a plan to the state of charge gives a plan (parts/controllers.py:1939-1971)
  * `ModelPred.C78_fails_zero_plan`: is false of the code for a plan that is 0 throughout: if the storage runs empty the plan is divided by its maximum 0 and becomes NaN, and the plant stays off although the storage runs empty.
  * `ModelPred.C78_fails_unclipped`: is false of the code for a plan with an entry above 1 whose storage gets too full: it is returned unchanged.
* **C79** Heat transfer coefficients of a shell are positive (precomp_funs.py:1119-1165, precomp_funs.py:4345-4424)
  * `Conductance.C79_fails_first_lid_adiabatic`: C79 fails for horizontal lids: in the first evaluation a lid conducts nothing at all, whatever the difference between water and ambient (the Nusselt number of a horizontal plane has no constant part and the surface starts at ambient temperature).
* **C80** Circuit functions leave their arguments unchanged (precomp_funs.py:5296-5348)
  * `Conductance.C80_fails_parallel_overwrites_first`: C80, second half fails: a parallel connection of arrays overwrites its first argument with the result, so the same call made again gives another value.
* **C82** The logarithmic mean temperature difference lies between the differences at the ends (precomp_funs.py:5354-5376)
  * `Conductance.C82_fails_balanced`: C82 fails for balanced streams: the same difference at both ends has no logarithmic mean (`0 / 0`).
* **C83** Numeric heat exchanger: the demand side takes up what the supply side gives up (precomp_funs.py:2593-2816, precomp_funs.py:209-246)
  * `HexNum.C83_fails_one_pass`: **C83 fails** for every exchanger with one pass: whenever heat is transferred in a steady state, the demand side does not take up the heat which the supply side gives up.
* **C84** Numeric heat exchanger: the grid does not change the heat transfer (precomp_funs.py:2712-2714, precomp_funs.py:5137-5160)
  * `HexNum.C84_fails_grid`: **C84 fails**: two descriptions of the same exchanger which differ only in the discretisation have different total conductances.
* **C85** Numeric heat exchanger: accepted plate numbers leave every side a channel (parts/hex_num.py:92-158)
  * `HexNum.C85_fails_two_plates`: **C85 fails**: a number of plates is accepted for which one side has no channel; its flow is then divided by zero.
* **C87** Numeric heat exchanger: a port conducts to its own cell (precomp_funs.py:250-297, parts/hex_num.py:214)
  * `HexNum.C87_fails_other_cell`: fails: the demand side's inlet uses the conductivity of the second cell of the *supply* side, and with two rows the supply side's outlet uses that of a cell of the *demand* side.
  * `HexNum.C87_fails_memory`: fails: the change of temperature in the last cell of the demand side is not a function of the temperatures and flows. Whatever the exchanger is like, two contents of the memory behind the array give different results, as soon as port and cell differ in temperature.
* **C88** Numeric heat exchanger: a step that passes the stability check creates no new extremes (precomp_funs.py:761-889, precomp_funs.py:2747-2816)
  * `HexNum.C88_fails_checked_step`: fails: a step which passes the code's stability check cools the wall below everything around it. The check divides by the volume `A_plate_eff * grid_spacing` instead of that of the cells, and does not know the heat capacity of the wall at all.
  * `HexNum.C88_fails_thin_wall`: fails for every exchanger in which some part of the wall is warmer than its surroundings: for every step, however short, and every temperature `B`, a wall thin enough passes or fails the check as before and is taken below `B` by that step.
* **C89** A PID controller computes the PID law (parts/controllers.py:375-494, controls.py:841-907)
  * `Controls.C89_fails_variable_steps`: fails for steps of different length, as every adaptive simulation has: the error is constant during a step of 1 s and one of 2 s, so that the derivative is zero at the end, but half of the first kick of the derivative part stays in the control value for good.
  * `Controls.C89_fails_filter_steps`: fails for a filtered derivative and steps of different length: the filter smooths the differences of the error, not its slope. The error of a ramp of slope 1 is sampled after 1 s and 3 s; a low pass of 1 s gives 1/2 and then 5/6, the controller uses 3/4.
* **C90** A simulation runs only on a completely set-up environment (simenv.py:593-689, simenv.py:4546-4619)
  * `Protocol.C90_fails_no_flow_net`: **C90 fails with `build_simenv=False`.** `set_disksaving` was forgotten, so `initialize_sim()` raises after the parts were built; a second `initialize_sim()` raises because the ports are already connected. Disk saving is set and `initialize_sim(build_simenv=False)` is called, which returns: the simulation runs without a flow net, with the mass flows it started with.
* **C91** The step mode asked for is the step mode simulated (simenv.py:338-453, simenv.py:640-662)
  * `Protocol.C91_fails_only_adaptive`: **C91 (negative, every script).** Whenever a simulation runs, the adaptive solver makes its steps: constant steps are never simulated, whatever was asked for.
  * `Protocol.C91_fails_constant_steps`: **C91 (negative, constant steps).** If every `set_timeframe` asks for constant steps, no `initialize_sim` returns and every `start_sim` is refused as not initialized.
  * `Protocol.C91_fails_stale_solver`: **C91 (negative, mixed).** `set_solver` fixes the method when it is called. A later `set_timeframe` with constant steps is accepted, and the simulation still runs with adaptive steps; a later `set_timeframe` with adaptive steps is accepted, and `start_sim` raises.
* **C92** Results are dated with the start of the time series (simenv.py:511-530, simenv.py:1402-1470)
  * `Protocol.C92_fails_late_disksaving`: **C92 fails when disk saving is set again.** After the environment was built with a series that starts at `d`, `set_disksaving` accepts any other date `d'`, and the simulation runs and dates its results with `d'`.
  * `Protocol.C92_fails_no_saving`: **C92 fails without disk saving.** If nothing is saved to disk, the date is to be inferred and there is no time series, the simulation is refused for lack of a date: every `start_sim` raises.
* **C93** A refused call of set_disksaving does not cost the results (simenv.py:511-591, simenv.py:4871-4890)
  * `Protocol.C93_fails_refused_call`: **C93 fails after a refused `set_disksaving`.** Disk saving was accepted; a second `set_disksaving` with a folder that does not exist is refused, but it has already replaced the description of the store. Initialization and simulation still run, and only at the end the results cannot be written.
* **C94** Invalid values stop the simulation (simenv.py:5103-5127)
  * `NanCheck.C94_fails_temperatures_only`: **C94 fails for invalid temperatures.** With valid mass flows no invalid temperature is ever noticed, however many there are.
  * `NanCheck.C94_fails_between_blocks`: **C94 fails after results were stored.** As long as the number of stored steps is no multiple of 5000 nothing is checked: with disk saving every `n` steps and `k` blocks stored, the check is off unless 5000 divides `k * n`.
  * `NanCheck.C94_fails_short_run`: **C94 fails in short runs.** With result arrays of fewer than 5000 rows (a time frame below 50 s) the message about the invalid value itself raises an `IndexError`, and the results are lost.
* **C95** A reset environment repeats the simulation over the whole time frame (simenv.py:5122-5126, simenv.py:4779-4802)
  * `NanCheck.C95_fails_after_stop`: **C95 fails after a stop.** After the simulation was stopped because of an invalid value, a reset and a new start end after a single step, whatever the time frame was (steps are never shorter than `min_stepsize`, by default `1e-8`).
* **C98** An accepted plant determines every mass flow (simenv.py:2186-2563, parts/tes.py:814-946)
  * `Topology.C98_fails_open_storage`: is false of the code: a storage of which one port is fed by a pump and two lead to boundary conditions is accepted; what enters never leaves, as the flow of the two ports stays 0.
* **C99** Both sides of a connection carry the same mass flow (simenv.py:2186-2563, all_parts.py,)
  * `Topology.C99_fails_two_valves`: is false of the code: two valves in the same circuit with openings of 25 % and 50 % are accepted. The pump delivers 1 kg/s, but 2 kg/s enter the first valve.
* **C100** Names of parts do not matter (simenv.py:2186-2563)
  * `Topology.C100_fails_name`: is false of the code: the plant with the heat exchanger called "hex" is accepted, with the heat exchanger called "dmd_hex" it is refused, as if there were two pumps in one circuit.
* **C101** The analysis of the topology is reproducible (simenv.py:2186-2300)
  * `Topology.C101_fails_order`: is false of the code: whether the plant is accepted depends on the order of the set of open parts, which changes from one Python process to the next.
* **C102** An accepted step is a step of Heun's method for the whole plant (simenv.py:3966-4123, precomp_funs.py)
  * `Attempt.C102_fails_pump`: is false of the code with a pump: although all port values are up to date before the step, the second evaluation takes the temperature behind the pump from the beginning of the step. The result differs from Heun's method by `(h a)² / 2` times the difference of the temperatures, for every step length.
* **C103** A step keeps what the differential equation keeps (simenv.py:3966-4123, precomp_funs.py)
  * `Attempt.C103_fails_pump`: is false of the code with a pump: in an adiabatic circle of two equal pipes with a pump, every step changes the sum of the temperatures by `(h a)² / 2` times the difference of the temperatures.
* **C104** Outlier removal by standard deviation removes far values and only few (utility_functions.py:867-906)
  * `Outliers.C104_fails_short_series`: is false of the code for short series: with three standard deviations, no value of a series of two to ten values is ever removed, however far it is from the others. (`ddof` is 1 for pandas, 0 for numpy.)
  * `Outliers.C104_fails_single`: is false of the code: the only value of a pandas series is removed.
* **C105** Median based outlier removal removes only outliers (utility_functions.py:1205-1267)
  * `Outliers.C105_fails_majority`: is false of the code: if more than half of the values are equal, such as the zeros of a meter at rest, every other value counts as outlier, however near.
* **C106** Buoyancy mixes where the lower water is lighter (precomp_funs.py:542-589)
  * `Buoyancy.C106_fails_cold_stable`: is false of the code: water of 0 °C above water of 2 °C is heavier below and does not move, but it is mixed.
  * `Buoyancy.C106_fails_cold_unstable`: is false of the code: below 3 °C water becomes lighter when it cools down, but a cold layer below is never mixed.
* **C107** A stronger inversion is mixed at least as strongly (precomp_funs.py:542-589)
  * `Buoyancy.C107_fails_transition`: is false of the code: for every lower temperature, viscosity and diameter there are two inversions of which the stronger one is mixed less.
* **C108** A simulation creates no new temperature extremes (simenv.py:3966-4123, precomp_funs.py)
  * `Attempt.C108_fails_checked_pipe`: is false of the code: the stability check accepts a step of half a second, after which the hottest cell (175) is hotter than anything was before (100) and the other two are colder (-50, -150) than anything was (0).
* **C109** Heat conducted through a connection leaves one part and enters another (simenv.py:1713-1895, simenv.py:2565-2618)
  * `PortCond.C109_fails_sizes`: is false of the code for pipes of different sizes at a connector without flow: the three pipes together lose heat that nothing else receives.
  * `PortCond.C109_fails_split`: is false of the code for splitting valves, even between equal pipes: warm water in one branch and cold water on the other sides.
  * `PortCond.C109_fails_chain`: is false of the code with two pumps in a row: the pipes exchange heat through two different conductances: one loses 270 W, the other one receives 150 W.
* **C110** Conductances of connections do not depend on the order of set-up calls (simenv.py:1713-1895, simenv.py:4621-4630)
  * `PortCond.C110_fails_order`: is false of the code: with two pumps in a row, which size the pipe behind them is told to be connected to depends on which pump was added first.
  * `PortCond.C110_fails_again`: is false of the code: initialising the same environment a second time changes the size.
  * `PortCond.C110_fails_boundary`: is false of the code: the same happens with a single pump at a boundary condition.
* **C112** Two simulations of a plant do not drift apart (simenv.py:3966-4123, precomp_funs.py)
  * `Attempt.C112_fails_heater`: is false of a heated pipe: of two pipes with shutdown at 100 degrees, the one that starts at 100 instead of 99 is colder after the step (100 instead of 109), because its heater switches off.
* **C113** A meter shows the flow through the cell it is attached to (simenv.py:3378-3392,, /repo/_utility/meters.py:117-127,)
  * `MeterFlow.C113_fails_demand`: is false on the demand side of a numeric heat exchanger: the meter shows the flow of the supply side.
  * `MeterFlow.C113_fails_gas`: is false on the flue gas side of the condensing heat exchanger: the meter shows the flow of water.
  * `MeterFlow.C113_fails_plate`: is false of plate heat exchangers and connectors: the meter shows zero, whatever flows.
  * `MeterFlow.C113_fails_connector`: 
* **C114** Resampling keeps totals (simenv.py:5424-5530, /repo/_utility/meters.py:340-345)
  * `Resample.C114_fails_uneven`: is wrong for the uneven steps of a simulation: every row weighs the same whatever the length of its step. One step of 9 with power 0 and one of 1 with power 10 transfer 10, the resampled column says 50.
  * `Resample.C114_fails_incomplete`: is wrong for a series that ends inside an interval: the last interval counts in full.
  * `Resample.C114_fails_not_divisor`: is wrong for a period that does not divide the new one: the samples of different intervals weigh differently.
  * `Resample.C114_fails_counter`: The columns of cumulated energy of a meter are resampled with the mean, too: the last value is not the total.
  * `Resample.C114_fails_ahead`: A value of the new series is made of samples after its time stamp: the value at time 0 of a step at time 5 has moved before the step.
* **C115** Ready-made modules choose heat exchangers that work (/repo/parts/part_modules/consumers.py:42-72,, parts/hex_num.py)
  * `Modules.C115_fails_flow`: is wrong for small circulation flows, `consumers.py:46`, `68-72`, `251-254`: below 0.036 kg/s the exchanger for the circulation gets at most two plates and its demand side no channel.
  * `Modules.C115_fails_area`: is wrong for small buildings, `consumers.py:44`: below 39 square metres the exchanger for hot water gets at most one plate and no channel.
* **C116** Scaled pipes are pipes of the wanted kind (utility_functions.py:451-538)
  * `PipeSpecs.C116_fails_type`: is wrong for other types of pipes: two parts with the same inner cross section get the same wall, whatever their types.
  * `PipeSpecs.C116_fails_erased`: is wrong for pipes of the table: a wanted cross section erases the row of the table with that cross section, so that the outer cross section given there has no influence on the result, neither for the part that is to have exactly this pipe nor for any other part.
* **C117** Ready-made modules fit into every plant (/repo/parts/part_modules/consumers.py, /repo/parts/part_modules/suppliers.py)
  * `Modules.C117_fails_el`: is wrong for CHP plants led by electricity demand: `'el'` is accepted as mode, but no controller is added for the CHP plant.
* **C118** Modules do not get in the way of each other (/repo/parts/part_modules/consumers.py, /repo/parts/part_modules/suppliers.py)
  * `Modules.C118_fails_default`: is wrong for the two variants of hot water supply: with the default segment name `'1'`, or any other one, they cannot be used together, because both call an open port `BC_phwrc_theta_ff_…`.
  * `Modules.C118_fails_segments`: is wrong for other segment names: `pwp_rc_ff_1` is a part of the segments `1` and `ff_1`.
* **C119** Equal arguments give equal modules (/repo/parts/part_modules/suppliers.py:115-130, /repo/parts/part_modules/chp_with_fluegas_hex.py:90-100)
  * `Modules.C119_fails_second`: is wrong for a pipe of the user: the first plant takes it out of the dictionary, all others get the standard pipe.
  * `Modules.C119_fails_old`: is wrong for `add_chp_with_fghex`: a second plant with the same dictionary, even the one in the default argument, raises a KeyError.
* **C120** The cells of a part make up the part (/repo/parts/pipe.py:70-105,, /repo/parts/tes.py:124-187,)
  * `Geometry.C120_fails_shell`: is wrong for thick shells: a shell thicker than the radius is accepted; the inner diameter is negative, but the cells have the wanted volume.
  * `Geometry.C120_fails_volume`: is wrong for the volume: negative volumes are accepted and give storages of negative height.
  * `Geometry.C120_fails_lids`: is wrong for the wall of storages: the heat capacity of top and bottom, plates with the thickness of the shell, is missing.
  * `Geometry.C120_fails_insulation`: is wrong for the conductivity of the insulation: zero is in the documented range and accepted, but the first evaluation divides by it.
* **C121** The power of a heater arrives in its cells (/repo/parts/heated_pipe.py:73-160, precomp_funs.py:2065)
  * `Geometry.C121_fails_last`: is wrong for the last cell: no range of cells that contains it is accepted.
* **C122** Ports have the sizes that were given for them (simenv.py:3394-3674)
  * `Geometry.C122_fails_table`: is wrong for diameters: as soon as one of several ports is given by a nominal diameter of the table, nothing is accepted (no type of pipe is the name of a row).
* **C123** The geometry of a plate heat exchanger follows from its description (/repo/parts/heatexchanger.py:504-941, /repo/parts/hex_num.py:649-1104)
  * `HexGeo.C123_fails_ports`: is wrong for the volume: with the same channels and plates as above, the volume by mass is larger by two ports.
  * `HexGeo.C123_fails_back`: is wrong for the description by volume: if the volume that follows from a channel width is given instead of the channel width, the channels are narrower.
  * `HexGeo.C123_fails_mass_base`: is wrong for the mass: with channel width, base mass and mass of a plate the exchanger can not be built; with the total mass instead of the base mass it can.
  * `HexGeo.C123_fails_thickness`: is wrong for impossible plates: a channel wider than the depth per plate is accepted, the plates then have negative thickness.
  * `HexGeo.C123_fails_depth`: is wrong for the depth given twice: the values that are used are not checked.
  * `HexGeo.C123_fails_total`: is wrong for the numeric heat exchanger: the total mass alone, documented as sufficient, is never accepted.
* **C124** Normalised errors do not depend on units (/repo/_utility/stat_error_measures.py:271-344)
  * `NormErr.C124_fails_mse`: is wrong for the normalised MSE (the default): it grows with the number that expresses the data.
  * `NormErr.C124_fails_zero`: is wrong for the mean: the coefficient of variation of temperatures depends on the zero of the scale; the larger the mean, the smaller it gets.
  * `NormErr.C124_fails_negative`: is wrong below zero: for a negative mean the coefficient of variation is negative, and the worse the prediction the smaller it is.
* **C126** More flow, better heat transfer between plates (precomp_funs.py:4516-4683, precomp_funs.py:3425-3478)
  * `FlowAlpha.C126_fails_short`: fails for cells near the inlet (the discretised heat exchanger uses the distance of the cell): where the distance equals the hydraulic diameter, a larger flow has a *smaller* coefficient once it becomes turbulent, at every temperature.
  * `FlowAlpha.C126_fails_correction`: fails for a negative correction, which `find_reynolds_correction` may store: without flow the coefficient is not a number.
* **C127** More flow through a plate heat exchanger transfers more heat (precomp_funs.py:3358-3558)
  * `PlatePower.C127_fails_limit`: fails exactly at the limit of the formula: there a slightly larger supply flow transfers *less* heat (`3030` at the limit, `60` above it).
* **C128** A hotter surface loses more heat (precomp_funs.py:4686-4757, precomp_funs.py:4760-4906)
  * `HotSurface.C128_fails_horizontal`: fails for a horizontal surface (the lid of a storage): there is a size at which the surface loses less heat at 71 degC than at 70 degC, with the ambient at 20 degC.
* **C129** Smaller steps lead to the solution of the differential equation (simenv.py:3966-4123)
  * `Attempt.C129_fails_second_order`: (second order) is false of the code with a pump: no constant times the square of the step length bounds the error.
* **C131** A pipe has no preferred direction (precomp_funs.py:1031-1234, precomp_funs.py:4345-4424)
  * `Cells.C131_fails_check`: is false of the stability check: of two pipes of two cells which are images of each other, one with cold water in the first and hot water in the second cell and no flow, the check accepts a step of 3.23 s for one only: it divides the conductance between two cells by the heat capacity of the second.
* **C132** A pipe can be divided into two connected pipes (precomp_funs.py:1031-1234, parts/pipe.py:380-440)
  * `FlowAlpha.C132_fails_losses`: is false of the heat losses with flow: the second pipe counts the distance from its own inlet, so *every* cell of it conducts strictly more heat to the ambient than the same cell of the long pipe, in the first evaluation.
* **C133** Performance indicators measure the prediction (utility_functions.py:2834-2922, utility_functions.py:2925-3026)
  * `Perf.C133_fails_r2`: is false of R²: whenever a prediction is not perfect the R² reported is larger than the coefficient of determination (the standard deviation of pandas divides by `n - 1`).
  * `Perf.C133_fails_zeros`: is false of series where only one value is zero: the prediction misses the first value completely, but the row is left out and the indicators are those of a perfect prediction.
  * `Perf.C133_fails_index`: is false of series with different index: the same values, but counted from 0 and from 1, which the documentation promises to ignore, give four samples instead of three.
* **C134** Plants without connection do not influence each other (simenv.py:3966-4150, simenv.py:862-890)
  * `StepControl.C134_fails_tolerance`: is false for the step lengths. However large the error of a plant is, the step is accepted if the environment contains a part, not connected to it, with sufficiently many cells whose temperatures do not change: the error is divided by the number of all cells.
* **C135** Accepted steps keep the tolerance (simenv.py:4124-4222, simenv.py:862-890)
  * `StepControl.C135_fails_cell`: is false for single cells: in a pipe of `n` cells one cell may exceed its tolerance by any factor below the root of `n`; the step is accepted if the other cells do not change.
  * `StepControl.C135_fails_hexnum`: is false for heat exchangers with numeric walls: their `T` has three cells per `num_gp`, so a step is repeated although every cell keeps six tenths of its tolerance.
* **C136** The order in which parts are added does not matter (simenv.py:862-900, simenv.py:3966-4256)
  * `StepControl.C136_fails_order`: is false after stability violations. Two parts are stable up to steps of length `a` and `b`. If the part with the longer limit was added first, two attempts fail, otherwise one. The accepted steps are equal, but the limit of growth is then smaller, and so is the length of the step after an exact one.
* **C137** The predictive controller plans in time (parts/controllers.py:899-906, parts/controllers.py:1471-1580)
  * `Plan.C137_fails_long_steps`: is false for longer steps, which no check excludes: with steps of `m` planning intervals the call number `j`, made in interval `j * m`, plans with the profiles of interval `j`.
  * `Plan.C137_fails_reset`: is false after a reset: `_reset_to_init_cond` (`controllers.py:1582-1589`) does not touch the schedule, so in the next simulation no call plans.
  * `Resample.C137_fails_begin`: is false for profiles which begin at another time: the end of planning interval `k` counts for row `k + 1`.
* **C138** A controller senses the cell that was named (controls.py:195-207, controls.py:952-1106)
  * `Sensor.C138_fails_name`: The names have to differ: a port added to a storage may be called `in` like the inlet, and is then not found.
  * `Sensor.C138_fails_hexnum`: The claim fails for heat exchangers with a grid of temperatures, since the number of a port is that of the flattened cell but picks a row. In a numeric heat exchanger with at least two rows the sensor at the supply outlet or at the demand inlet reads nothing, that at the supply inlet reads three temperatures, and that at the demand outlet (in the first row) reads the third row or nothing.
  * `Sensor.C138_fails_condensing`: Likewise in a condensing heat exchanger: the sensors at both outlets read nothing and those at the inlets read two temperatures, that at the flue gas inlet those of the outlets.
* **C139** Implicitly solved heat exchangers: no step is too long (precomp_funs.py:2996-3197, simenv.py:4003-4016)
  * `HexNum.C139_fails_unsolved`: The claim fails if the solver does not succeed: its last array becomes the result of the step, whatever it is.
* **C140** The chosen cells are saved (simenv.py:716-762, simenv.py:5423-5530)
  * `Saving.C140_fails_heat_exchanger`: is false of numeric heat exchangers: the choice of any row behind the second one is accepted and lets the finalisation of the simulation fail, because it is applied to the two columns of mass flows, too.
  * `Saving.C140_fails_rows`: is false of numeric heat exchangers: the cells of the saved table have numbers up to three times the number of rows, but those from the number of rows on are refused.
  * `Saving.C140_fails_negative`: is false for numbers below the range: they are accepted and let the finalisation fail.
  * `Saving.C140_fails_other_parts`: is false of pumps, valves, connectors and heat exchangers without grid: the choice of the first cell by its number saves nothing, its choice by a list saves all cells.
  * `Saving.C140_fails_refused`: is false after a refused call: a second part of the same name is refused, but its choice of cells replaces the one of the first part.
  * `Saving.C140_fails_uncompressed`: is false without compression: everything is saved, whatever was chosen.
* **C141** Saved data are returned under their names (simenv.py:5619-5666, _utility/meters.py:347-362)
  * `Saving.C141_fails_part_meters`: is false of a part named `meters`: its results are not returned.
  * `Saving.C141_fails_part_vectors`: is false of a part named `sim_vecs`: its results are not returned.
  * `Saving.C141_fails_name`: is false if the name of a part contains `meters`: its tables are returned as meters `res` and `dm`, also if there are no meters at all.
  * `Saving.C141_fails_slash`: is false if the name of a meter contains a slash: it is returned under another name and replaces the meter of that name.
* **C142** A time series is applied to what it was assigned to (simenv.py:1330-1558, simenv.py:1560-1566)
  * `Assign.C142_fails_minus_one`: is false for the last element by the number minus one and for numbers below the range: the call is accepted, and the initialisation of the boundary conditions fails, whatever the series.
  * `Assign.C142_fails_subsecond`: is false with stamps between full seconds: no second series can be assigned, not even with the same stamps.
  * `Assign.C142_fails_refused`: is false after a refused call: a first call that is refused because its target does not exist fixes the stamps for all later series.
* **C143** An actuator without controller takes the given value (simenv.py:1127-1232, parts/pump.py:204-321)
  * `Assign.C143_fails_valve_series`: is false of pipes with a valve and a series: the valve keeps its start opening, whatever the series.
  * `Assign.C143_fails_mixing_valve`: is false of mixing valves: neither a constant nor a series is accepted.
  * `Assign.C143_fails_range`: The constant opening of a pipe with a valve is not checked: any value is accepted, and the two openings always add up to one, so that one of them is negative for values outside of the range from zero to one.
* **C144** Powers of heaters and CHP plants are recorded for every step (parts/heated_pipe.py:194-237, parts/chp_plant.py:561-675)
  * `TimeLoop.C144_fails_enlarged`: is false for longer runs without disk saving: the arrays of temperatures and flows are enlarged, those of the powers are not, and the first step after the enlargement writes behind their end. For all buffer sizes and runs.
* **C145** Loading results returns the tables that were asked for (utility_functions.py:46-101)
  * `Loading.C145_fails_name`: is false of parts whose name contains `sim_vecs`: their results are never in the joined table, which is the default.
  * `Loading.C145_fails_no_vectors`: is false of files without a table at the root, as left behind by a simulation that broke off: nothing can be loaded, whatever is asked for.
  * `Loading.C145_fails_only_vectors`: is false when only the vectors of the simulation are asked for: by default this is an error, as there is nothing to join.
* **C146** A stratified storage stays stratified (precomp_funs.py:2095-2371, precomp_funs.py:542-589)
  * `Cells.C146_fails_lid`: is false of storages with a lid: a storage without any flow, charged evenly to a temperature above that of the ambient and insulated at its shell, is warmer below the top than at the top after any step that loses heat through the lid.
* **C147** A CHP plant is not started too often (parts/chp_plant.py:675-774)
  * `Chp.C147_fails_rejected_attempt`: is false without allowance for rejected attempts, as the plant tests its times with the step that was tried first: two attempts of 600 s, after which 1 s was accepted, and a plant with minimum times of 600 s each starts for the second time after 603 s.
* **C148** Removing outliers by a rolling median removes spikes and nothing else (utility_functions.py:909-976)
  * `Outliers.C148_fails_ramp`: is false of rising or falling series: of seventeen or more values on a straight line the first and the last one are removed, with the default window and limit.
  * `Outliers.C148_fails_alternating`: is false of series that alternate, like a valve that opens and closes: with seventeen or more values all but the first and the last one are removed, with the default window and limit.
* **C149** Heat losses do not depend on the number of grid points (precomp_funs.py:4270-4329, precomp_funs.py:4686-4757)
  * `FlowLength.C149_fails_storage`: fails for storages: of two grids the finer one has the larger steady conductance to the ambient, for every storage at rest which is warmer than the ambient: the length of the flow is the height of one cell.
* **C150** Centred rolling windows are centred (utility_functions.py:983-1194)
  * `RollCentered.C150_fails_lag`: fails for windows which are no multiple of the spacing: away from the ends the mean of a straight line is the line of half a spacing before (even number of values) or of a whole spacing before (odd number).
  * `RollCentered.C150_fails_end`: fails at the end for these windows: the last values are lost, whatever `min_periods` is.
  * `RollCentered.C150_fails_short`: fails for windows shorter than the spacing: no value is left.
* **C151** Packaging sorts results into one folder per simulation and loses none (utility_functions.py:167-285)
  * `Package.C151_fails_log`: fails if the log of a simulation is missing and its identifier is the beginning of that of another one: the results of number 1 are put in the folder of number 12, under the name of number 12, with its log; those of number 12 are not packaged.
  * `Package.C151_fails_suffix`: fails for a feature after the number, as the documentation recommends it: without logs all simulations have the folder of the first one, the others are skipped.
  * `Package.C151_fails_count`: fails for the number of packaged results that is printed: it counts the ones that were skipped or are still running.
* **C152** The root finders return roots (precomp_funs.py:6104-6156, precomp_funs.py:6160-6206)
  * `RootFind.C152_fails_flat`: is false where the function does not change between the two starting points: their mean is returned, whatever the value there; Newton's method returns the starting point.
  * `RootFind.C152_fails_maxiter`: is false when the passes run out: the two iterates are exchanged before the loop ends, the older one is returned. With one pass the second starting point comes back although the exact solution has been computed.
  * `RootFind.C152_fails_coupled`: is false for coupled equations: the step of each variable is computed from the change of its own equation only. From `(0, 0)` the method stops at once at `(dx / 2, 0)`, where the first equation is not solved; the equations have the unique solution `(1/2, -1/2)`.
  * `RootFind.C152_fails_mirror`: is false for roots further away: the ends of the interval are exchanged but not their values, the first step goes to the mirror image of the root.
  * `RootFind.C152_fails_end`: is false at the ends: if the root is ten per cent below the start, the point ten per cent above is returned; if it is ten per cent above and two passes are allowed, the result is infinite.
  * `RootFind.C152_fails_tolerance`: is false for the tolerance: every value `s` with `(s - tol)² < tol` is accepted at the lower end, such as 0.032 for a tolerance of 0.001.
* **C153** Water cools down along a pipe (precomp_funs.py:1094-1240, precomp_funs.py:283-291)
  * `Cells.C153_fails_neighbour`: fails without the condition on the part behind the outlet: the last cell of a perfectly insulated pipe is hotter (13) than the inlet (10), since the part behind is (17).
* **C154** Every port has its own place among the mass flows of its part (simenv.py:2890-3234, simenv.py:902-1084)
  * `FlowIndex.C154_fails_no_ports`: A branched pipe to which no port is added (`new_ports=None`, as its error message proposes) has no place for the flow through its outlet.
  * `FlowIndex.C154_fails_name`: A port named like an existing one shares its place, so that the flows of two ports overwrite each other.
* **C155** A Reynolds correction fitted to heat transfer coefficients reproduces them (parts/heatexchanger.py:943-1021, parts/hex_num.py:1106-1189)
  * `ReCorr.C155_fails_gap`: The Nusselt number jumps at the beginning of turbulence: some coefficients are met by no correction, whatever the operating point.
  * `ReCorr.C155_fails_negative`: A coefficient smaller than without correction is met only by a negative correction, with which the coefficient of a heat exchanger without flow is not a number.
  * `ReCorr.C155_fails_numeric`: With one length per cell, as numeric heat exchangers pass them, the function cannot be evaluated for one operating point, nor for any number of points other than twice the number of cells.
  * `ReCorr.C155_fails_temperatures`: With one temperature per operating point, the function cannot be evaluated for more than one point.
* **C156** The regression of the condensing heat exchanger is evaluated as it was fitted (precomp_funs.py:6030-6097, precomp_funs.py:2820-2992)
  * `PolyReg.C156_fails_empty`: Without features there is nothing to take the width of the table from: degree 0 without bias raises.
* **C157** A simulation is compared with measured data at the same times (utility_functions.py:415-448, utility_functions.py:2817-2922)
  * `Fit.C157_fails_shifted`: is wrong for every series which has the period of the grid but does not begin at one of its times: all values are kept in their order, with new times which are before the reading was taken, with `forward_fill` as with `backward_fill`.
  * `Fit.C157_fails_disjoint`: is wrong for two series which are accepted, but have no time in common after they were fitted (one of them is even with the period asked for, but has other times than the grid; or they begin on different days): whatever the values are, the indicators are those of a perfect prediction.
  * `Fit.C157_fails_gap`: is wrong for `forward_fill` from a begin between two times of the grid: the time before the first reading has no value but counts. The prediction is 2 too high at all times and the mean bias is reported as 4/3.
* **C158** Larger CHP plants have higher maintenance cost (parts/controllers.py:2885-2915, parts/controllers.py:2703-2759)
  * `Maint.C158_fails_falling`: is wrong from 77 kW on: a larger plant has a lower cost per hour.
  * `Maint.C158_fails_negative`: is wrong from 121 kW on: the cost per hour is negative, so that every hour of operation earns money, although a negative number given by the user is refused (line 1199).
  * `Maint.C158_fails_jump`: is wrong at 10 kW: every plant between 9 kW and 10 kW costs more per hour than one with 10 kW.
* **C159** The report tells whether and how the simulation was solved (simenv.py:5532-5617, simenv.py:4876-4951)
  * `Report.C159_fails_steps_mean`: **C159 is false of the code for the number of steps and the mean step**: in every completed run the report gives one step more than were made, and a mean step that counts the last step twice.
  * `Report.C159_fails_mean_iff`: **C159 is false of the code for the mean step**: it is the simulated time divided by the number of steps only if the last step happens to have that length.
  * `Report.C159_fails_success`: **C159 is false of the code for failed runs**: the report of a run stopped for invalid values, written while the first block of results is in memory, names the failure and in the same breath calls the simulation a success.
  * `Report.C159_fails_lost`: **C159 is false of the code for failed runs, with results saved to disk**: once the first block has been stored, the mark of a run stopped for invalid values lands behind the rows in use and is cut off; the report equals that of a run that was solved.
  * `Report.C159_fails_no_report`: **C159 is false of the code for failed runs, later blocks**: from the third block on, setting the mark itself fails and no report is written.
* **C160** A controller with an integral term leaves no steady deviation (parts/controllers.py:367-494, parts/controllers.py:342-364)
  * `Controls.C160_fails_windup`: **C160 is false of the code if the anti-windup is too small, continuous time**: with the integral term at its limit and a deviation `e` the control value rests inside the saturation, for any steps and any number of calls.
  * `Controls.C160_fails_discrete`: **C160 is false of the code for discrete time controllers**: the anti-windup limits the last control value, not an integral. If it is below the saturation the control value rests at any value above it, with the deviation that adds the difference in every step, for any number of calls.
* **C162** A two-position controller keeps the process value in its band (parts/controllers.py:497-552, controls.py:841-926)
  * `Controls.C162_fails_inverted`: **C162 is false of the code for inverted controllers**: for every plant at rest inside the band the control value changes its sign in every call; no width of the hysteresis protects the actuator.
  * `Controls.C162_fails_slope`: **C162 is false of the code with a slope limit**: the control value is then only moved towards its target while the process value is outside the band, and stays in between when it enters the band.
* **C163** Properties of air are physical (precomp_funs.py:4160-4210, precomp_funs.py:4216-4233)
  * `Air.C163_fails_cold`: **C163 is false of the code at the cold end of the documented range**: between -30 and -29 degrees the water content falls with the temperature.
  * `Air.C163_fails_agree`: **C163 is false of the code at the cold end**: at -30 degrees the two functions differ by more than a quarter.
* **C164** Properties of water fit together (precomp_funs.py:3955-4143)
  * `Water.C164_fails_viscosity`: **C164 is false of the code near 100 degrees**: from 98 degrees on the viscosity rises with the temperature.
  * `Water.C164_fails_Pr`: **C164 is false of the code at 100 degrees**: the Prandtl number is more than 17 percent too small.
  * `Water.C164_fails_sign`: **C164 is false of the code around 3.6 degrees**: water gets lighter with the temperature although its expansion coefficient is negative.
* **C165** A two-sensor controller charges a storage completely and without short cycles (parts/controllers.py:638-658, controls.py:841-926)
  * `Controls.C165_fails_inversion`: **C165 is false of the code for a storage that is not stratified**: the controller stays off however cold the upper sensor is, as long as the lower sensor is hot.
  * `Controls.C165_fails_order`: **C165 is false of the code if the activation value is above the setpoint**: between the two values the controller switches off and on again although nothing changes at the sensors but half a kelvin.
* **C166** Loading by name returns what was asked for (utility_functions.py:104-149, utility_functions.py:541-586)
  * `ByName.C166_fails_identifier`: **C166 is false of the code for other sets in the same folder**: simulation 1 of the set `MC` is returned although simulation 1 of the set `LHS` was asked for and exists.
  * `ByName.C166_fails_all`: **C166 is false of the code for all results**: `set_numbers=None`, documented as "get ALL results", always fails.
  * `ByName.C166_fails_plain`: **C166 is false of the code if anything without a number is in the folder**: whatever is asked for, nothing is returned.
  * `ByName.C166_fails_which`: **C166 is false of the code for chosen databases**: asking for particular databases always fails.
  * `ByName.C166_fails_path`: **C166 is false of the code for databases in another folder**: giving the folder as an argument always fails.
  * `ByName.C166_fails_separator`: **C166 is false of the code where the separator is a slash**: there is no folder `…\data_tables`, nothing is found in it, and the result is empty without any message.
* **C167** An insulated storage that is not used evens out its temperatures and keeps its energy (precomp_funs.py:2095-2371, precomp_funs.py:491-515)
  * `Idle.C167_fails_long_step`: fails with a step of twice the time constant of the cells, which the stability check would reject: the deviations from the mean grow to the 25-fold.
  * `Idle.C167_fails_capacity`: fails if the heat capacity depends on the temperature: the energy, the integral of the heat capacity, changes although nothing leaves or enters the storage.
* **C168** Labels and numbers in plots and tables say what they stand for (_utility/plotting.py:525-657, _utility/plotting.py:660-686)
  * `Label.C168_fails_dollar`: fails for a label that contains a dollar sign: with a unit it is accepted, and the label falls apart into two formulas with plain text between.
  * `Label.C168_fails_empty`: fails for an empty label without unit: the result is a comma outside of any formula.
  * `Label.C168_fails_sign`: fails to treat a number and its negative alike: 12345 keeps its digits, −12345 is printed as −12300.
* **C169** A change of the supply temperature arrives at the end of a pipe after its transit time (precomp_funs.py:1205-1224, precomp_funs.py:1031-1235)
  * `Arrival.C169_fails_long_step`: fails with steps of twice the time constant of the cell: the change never arrives.
* **C171** Second law: no step of the solver lowers the entropy of a part and its surroundings (precomp_funs.py:1195-1240, precomp_funs.py:2095-2371)
  * `SecondLaw.C171_fails_long_step`: fails with a step of twice the time constant of the cells, if the stability check accepts it: the warm cell becomes warmer, the cold one colder, and the entropy decreases although the storage exchanges nothing with anything.
* **C173** A step accepted by the stability check moves at most the content of a cell (precomp_funs.py:697-726, precomp_funs.py:812-854)
  * `Stability.C173_fails_lighter_cell`: fails in general: a step is accepted in which more than the mass of a cell flows through it, because the flow is compared with the mass of a cell of the largest density.
* **C174** Second law for the numeric heat exchanger (precomp_funs.py:2593-2816, precomp_funs.py:209-246)
  * `HexNum.C174_fails_one_pass`: fails with one pass: a steady exchanger between 0 and 10 degC with two channels on the supply side and one on the demand side, whose ports do not conduct, destroys entropy, since half of the heat is lost.
* **C175** The plans of the predictive controller are found in the stored results (parts/controllers.py:1244-1309, parts/controllers.py:1779-1928)
  * `Plan.C175_fails_emergency`: is false of planning steps during emergency control: their states 100 and -100, which the code writes for this purpose, are in no stored table, whatever happens.
  * `Plan.C175_fails_single`: is false of plans of one step, as they are made if the planning horizon is not longer than `opt_every`: the tables of plans are empty.
  * `Plan.C175_fails_invented`: : if emergency control is active in all planning steps, the table of the states of charge says that the storage had no content at the beginning.
* **C176** A heat meter shows the heat that the simulated water carries (_utility/meters.py:156-175, precomp_funs.py:4034-4044)
  * `Meters.C176_fails_hot`: is false of hot water: if water is heated from 90 to 100 degrees, the meter counts at least two percent less than is carried away.
* **C177** Controllers that refer to other controllers and parts act on what is true in the same step (controls.py:30-430, controls.py:436-652)
  * `CtrlNet.C177_fails_reference`: The error message asks for `reference_part`, `reference_port` and `ref_SP_diff`. With them and nothing else, the controller is never added.
  * `CtrlNet.C177_fails_ignored`: `ref_SP_diff` has to be given but its value is not used.
  * `CtrlNet.C177_fails_linked`: A linked controller whose actuator has to follow that of a controller already there is refused. If one was added all the same (before the controller of the reference), then its actuator stays as it was, whatever happens.
* **C178** The controllers of ready-made modules fit their parts (parts/part_modules/consumers.py:484-566,, parts/part_modules/suppliers.py:650-926,)
  * `ModuleCtrl.C178_fails_el`: In the mode `'el'` the CHP plant, which needs a controller, gets none.
  * `ModuleCtrl.C178_fails_older`: The older module with one or two return ports, in any plant whose parts are those of the module and others of which none is called like the second valve: its controllers are never added.
* **C179** Saved results are complete, kept and found (simenv.py:511-591, simenv.py:5323-5421)
  * `StoreFiles.C179_fails_again`: fails for a second run: after a run has ended, the environment (reset, but without a new call of `set_disksaving`) cannot save again: the second run raises when it saves for the first time.
  * `StoreFiles.C179_fails_same_second`: fails for simulations of the same name which are set up within the same second (no matter in which order, with `overwrite` or without): the second one is accepted too, the rows of both get into one file and the second one to end raises.
  * `StoreFiles.C179_fails_folder`: fails for folders given without a separator at the end: the results are never saved in this folder (which is created if it does not exist).
  * `StoreFiles.C179_fails_report`: fails if the folder has `.h5` in its name: the report is looked for in another folder.
* **C180** An array of boundary conditions becomes a time series of the wanted length (utility_functions.py:293-412)
  * `BcSeries.C180_fails_fitting`: fails for arrays that fit: an array which covers exactly the wanted duration always raises an error.
  * `BcSeries.C180_fails_single`: fails for single values: they cannot be repeated.
  * `BcSeries.C180_fails_pandas`: fails with pandas from version 1.0 on: no series is returned whatever the arguments are.
  * `BcSeries.C180_fails_drift`: fails for periods which are no whole nanoseconds: values given three times a second come half a second too early after sixteen years (and `3 * 5 * 10^8` values), whatever they are.
* **C181** Meters can be added to finished simulations and are dated like their results (_utility/meters.py:17-68, _utility/meters.py:129-133,)
  * `MeterLife.C181_fails_memory`: fails in memory: after a simulation which does not save its results, meters can never be added.
  * `MeterLife.C181_fails_start`: fails for other starts: the start given to `Meters` is not compared with that of the results; unless both are the same, *no* row of a meter (without resampling) is dated like the saved row of the same step.
  * `MeterLife.C181_fails_stale`: fails for meters of an earlier simulation: a `Meters` object which was made after the first of two simulations with the same number of steps accepts further meters, and dates the results of the second one with the times of the first.
* **C182** Heat passes through all inner plates of a plate heat exchanger (parts/heatexchanger.py:84-148, parts/heatexchanger.py:712-713)
  * `PlateCount.C182_fails_passes`: fails for several passes: always the plates between two passes are left out; the heat transfer value is that of `plates - 1 - passes` plates instead of `plates - 2`.
* **C183** Validation plots show the errors of the prediction (_utility/plotting.py:187-329, _utility/plotting.py:332-522)
  * `ValPlot.C183_fails_bias`: **C183 is false of the code for the density plot**: the normalised mean bias has always the wrong sign, if measured and predicted values have means of the same sign; a prediction that is too high is shown as too low.
  * `ValPlot.C183_fails_variation`: **C183 is false of the code for the density plot**: the coefficient of variation that is shown is right only if the values are all equal or have the same mean.
  * `ValPlot.C183_fails_determination`: **C183 is false of the code for the density plot**: the coefficient of determination that is shown is right only if the values are all equal or vary equally.
* **C184** Prediction-realization plots of time series show what is asked for (utility_functions.py:3030-3322, utility_functions.py:3326-3559)
  * `PredPlot.C184_fails_other`: **C184 is false of the code for other measures**: scatter and density plots leave out, without any message, the mean bias, the absolute error, the error itself and the errors normalised by range or quartiles, whatever is asked for.
  * `PredPlot.C184_fails_hexbin`: **C184 is false of the code for hexagon plots**: they fail with a `KeyError` whenever one of the measures is asked for, with the exception of the mean squared error; this one is not shown. So they never show any measure.
  * `PredPlot.C184_fails_determination`: **C184 is false of the code for the coefficient of determination**: for the same rows, scatter and density plots show different values of it; that of the scatter plot is too large, unless the prediction is perfect.
  * `PredPlot.C184_fails_line`: (regression): the right end of the line that is drawn lies on the best line. The left end lies on it only if the slope is one or the smallest value is zero; otherwise the line drawn is another one.
* **C185** A heat map shows the data of its call (_utility/plotting.py:20-184)
  * `Heatmap.C185_fails_scale`: **C185 is false of the code**: after one call with a logarithmic scale, all calls without one that use the same dictionary, such as all calls that give none, get the logarithmic scale too, with the limits of the data of that other call.
  * `Heatmap.C185_fails_ends`: **C185 is false of the code**: after one call with an extended colour bar, all calls without one that use the same dictionary have a colour bar with extended ends.
* **C186** A plate heat exchanger has no preferred side and no preferred direction (precomp_funs.py:3358-3558)
  * `PlateHex.C186_fails_limit`: fails exactly at the limit: connected one way round the demand water leaves with 3050 degrees, with the circuits exchanged the same water leaves with at most 80 degrees.
* **C187** A plate heat exchanger transfers its heat transfer value times the logarithmic mean temperature difference (precomp_funs.py:3358-3558, precomp_funs.py:5354-5376)
  * `PlateHex.C33_fails_at_limit`: is false of the code when `(R - 1) * NTU` is exactly 100: the demand water leaves with 3050 degrees between inlets of 80 and 20 degrees.
* **C188** A larger plate heat exchanger transfers more heat (parts/heatexchanger.py:84-148, precomp_funs.py:3358-3558)
  * `PlateCount.C188_fails_plates`: fails for the number of plates: for every kind of plates (whose correction does not make every flow turbulent) there are a heat exchanger, flows and temperatures for which *two more plates* transfer *less* heat: the coefficient jumps where the formula for turbulent flow ends, and more channels have less flow each.
* **C189** Better insulation, smaller losses (precomp_funs.py:4910-4965, precomp_funs.py:5047-5097)
  * `Conductance.C189_fails_thin`: fails below the critical radius, as in reality: there more insulation of the same material loses *more* heat, the more the thicker it is.
* **C190** A mixing valve can set every temperature between those of its inlets (precomp_funs.py:3585-3613, parts/mixingvalve.py:615-626)
  * `MixControl.C190_fails_open`: is false of the code: with the hot inlet fully open and the cold one closed, the water leaves the valve hotter (more than 90.4 degrees) than it enters (90): although nothing flows through it, the closed inlet (10 degrees) is used for the heat capacity of the outlet. A connector passes the water on unchanged.
  * `MixControl.C190_fails_cold`: is false of the code: with 90 and 10 degrees at the inlets no opening gives 10.01 degrees.
* **C191** Joining streams in different orders gives the same temperature (precomp_funs.py:3274-3347)
  * `MixOrder.C191_fails_water`: is false of the code: 5 kg/s of 90 degrees, 10 g/s of 5 degrees and 1 kg/s of 10 degrees: if the last two are joined first, the result is colder by more than 0.4 degrees.
* **C192** A heater does not overheat the water (precomp_funs.py:1872-2090, parts/heated_pipe.py)
  * `Overheat.C192_fails_limit`: is false of the code in its simple form: a heated pipe with shutdown at 100 degrees, which is nowhere hotter than 99 degrees, has 109 degrees after one step.
* **C193** A heater heats the water up by its power divided by the heat capacity flow (precomp_funs.py:1872-2090)
  * `Cells.C193_fails_water`: is false with the specific heat of the water: every insulated heater that heats water from 90 to 100 degrees has to give more than 1.02 times the flow times the specific heat at 95 degrees times 10 degrees.
* **C196** A modulation that the optimiser finds to be cheaper than its neighbours is the cheapest (parts/controllers.py:2421-2633, parts/controllers.py:2063-2100)
  * `Tariff.C196_fails_prices`: fails for prices that make feeding in worth more than own use: half power is cheaper than its neighbours, though full power is cheaper still.
  * `Tariff.C196_fails_standstill`: fails at standstill: below 0.6 of the lowest modulation the cost of a plan does not depend on the modulation, so that standstill is as cheap as its neighbours, though full power may be cheaper.
* **C197** A plan that the long-term optimisation cannot improve by small changes is the cheapest (parts/controllers.py:1779-1870, parts/controllers.py:1600-1664)
  * `Tariff.C196_fails_standstill`: fails at standstill: below 0.6 of the lowest modulation the cost of a plan does not depend on the modulation, so that standstill is as cheap as its neighbours, though full power may be cheaper.
  * `Tariff.C196_fails_prices`: fails for prices that make feeding in worth more than own use: half power is cheaper than its neighbours, though full power is cheaper still.
* **C198** The starting point of the long-term optimisation is admissible (parts/controllers.py:2161-2199)
  * `Preopt.C198_fails_gives_up`: fails to find a plan: the steps to be lowered are looked up before the loop, so that a storage that becomes overfull by raising others is not noticed; the plan that was given comes back after 100 passes, though running in one step only would do.
  * `Preopt.C198_fails_modulation`: fails for other ranges of modulation: half power is written into the plan of a plant that has to run at 60 percent at least.
* **C200** Only differences of temperatures matter (precomp_funs.py:1031-1235, precomp_funs.py:1872-2090)
  * `Cells.C200_fails_material`: fails for materials whose heat capacity depends on temperature: the same pipe 10 degrees warmer changes its temperatures at another rate.
* **C201** The table of storage capacities tells the capacities in use (parts/controllers.py:1244-1268, parts/controllers.py:1757-1780)
  * `ModelPred.C201_fails_same_time`: is false of the code when a call both adapts and restores: of the two rows with the same time the first one is kept, and it holds the other capacity before it was restored. Here the table ends with an upper capacity of 40 kWh, the controller goes on with 45 kWh. The table also has no row for the time before the first adaption.
* **C204** The length of the steps of a plan does not matter (parts/controllers.py:1221-1226, parts/controllers.py:1376-1380)
  * `Tariff.C204_fails_first_step`: is false of the constraints: with the storage at its lower capacity and a demand of 3 kWh per step, standing still is admissible for a plan with one step, and not if the step is divided into two.
* **C205** A stronger heater heats more (precomp_funs.py:1872-2092, parts/heated_pipe.py:93-155)
  * `Cells.C205_fails_shutdown`: fails when heaters are switched off: 90 degrees heated twice by 9 K end at 103.5, heated twice by 10 K at 100 degrees, because the stronger heater is switched off in both steps and the weaker one in the second step only.
* **C206** A plate heat exchanger answers in proportion to its inlet temperatures (precomp_funs.py:3358-3558)
  * `PlateHex.C206_fails_limit`: (monotony) fails when `(R - 1) * NTU` is exactly 100: with *warmer* demand water at the inlet (21 instead of 20 degrees) the demand water leaves *colder*, by 49.5 degrees.
* **C207** The action of a controller does not depend on how the solver divides the time (controls.py:841-950, parts/controllers.py:375-658)
  * `Controls.C207_fails_derivative`: fails for derivative parts: an error of 1 during 2 s, seen in one step or in two.
  * `Controls.C207_fails_discrete`: fails in discrete time: the anti-windup limits the last control value, not the integral, so that the last step is added to it in full, however long it is.
  * `Controls.C207_fails_inverted`: fails for inverted switching controllers: inside the band every call changes the sign of the control value.
* **C208** A larger deviation never leads to a weaker action (controls.py:841-950, parts/controllers.py:375-658)
  * `Controls.C208_fails_derivative`: fails for derivative parts: the plant that was colder before has less action now.
  * `Controls.C208_fails_discrete`: fails in discrete time after the saturation was reached: the plant that was too cold by 20 K gets the opposite of heat when it is too cold by 1 K, the plant that was too cold by 5 K gets heat.
* **C209** Anti-windup limits the memory of a controller (controls.py:841-950, parts/controllers.py:375-494)
  * `Controls.C209_fails_unlimited`: fails without anti-windup: however long it has been too hot, there is a history after which the controller still heats at full power.
* **C211** The modulation of a running CHP plant does not depend on how the time is divided (parts/chp_plant.py:680-774)
  * `Chp.C211_fails_start`: fails when the plant is started: it runs as soon as the first step ends after the pause, so that with a longer step it is started later.
* **C212** The meters of branches and of sections add up (_utility/meters.py:70-207)
  * `Meters.C212_fails_opposite`: fails for positive-only counters when the branches flow against each other.
  * `Meters.C212_fails_sections`: fails for sections if the heat capacity depends on the temperature other than linearly: here it is larger in the middle.
