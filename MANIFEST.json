{
 "claims": [
  {
   "property": "C01",
   "status": "proved",
   "theorems": [
    "Verif.StepControl.C01_solver_call_ends",
    "Verif.StepControl.C01_solver_call_unique",
    "Verif.StepControl.C01_raise_after_hundred"
   ],
   "note": "retry loop as a step machine over arbitrary attempt outcomes"
  },
  {
   "property": "C02",
   "status": "proved",
   "theorems": [
    "Verif.StepControl.C02_accepted_step_meets_tolerance"
   ],
   "note": ""
  },
  {
   "property": "C03",
   "status": "partial",
   "theorems": [
    "Verif.StepControl.C03_max_stepsize_partial",
    "Verif.StepControl.C03_fails_first_step"
   ],
   "note": "false for max_stepsize < 1 (first step is always 1 s); proved for all later steps and for max_stepsize >= 1"
  },
  {
   "property": "C04",
   "status": "partial",
   "theorems": [
    "Verif.StepControl.C04_min_stepsize_partial",
    "Verif.StepControl.C04_fails_instability",
    "Verif.StepControl.C04_fails_first_step"
   ],
   "note": "false after stability violations and for min_stepsize > 1"
  },
  {
   "property": "C05",
   "status": "partial",
   "theorems": [
    "Verif.Attempt.C05_no_trace_partial",
    "Verif.Attempt.C05_fails_memory",
    "Verif.Conductance.C05_fails_pipe_remembers"
   ],
   "note": "proved for parts without memory; pipes and storages keep heat transfer coefficients of rejected evaluations"
  },
  {
   "property": "C06",
   "status": "partial",
   "theorems": [
    "Verif.StepControl.C06_growth_bound",
    "Verif.StepControl.C06_growth_limited_partial",
    "Verif.StepControl.C06_fails_after_recovery"
   ],
   "note": "false once more than factor_recovery steps succeeded; exact bound proved"
  },
  {
   "property": "C07",
   "status": "proved",
   "theorems": [
    "Verif.TimeLoop.C07_ends_at_timeframe",
    "Verif.TimeLoop.C07_times_strictly_increasing",
    "Verif.TimeLoop.C07_terminates",
    "Verif.TimeLoop.C07_solver_steps_positive"
   ],
   "note": ""
  },
  {
   "property": "C08",
   "status": "partial",
   "theorems": [
    "Verif.TimeLoop.C08_C09_run_result",
    "Verif.TimeLoop.C08_complete_history_partial"
   ],
   "note": "complete characterisation of the outcome; runs ending on a full buffer with disk saving fail"
  },
  {
   "property": "C09",
   "status": "partial",
   "theorems": [
    "Verif.TimeLoop.C08_C09_run_result",
    "Verif.TimeLoop.C09_finalise_partial",
    "Verif.TimeLoop.C09_fails_full_buffer"
   ],
   "note": "false with disk saving when the number of steps is a multiple of the buffer size"
  },
  {
   "property": "C10",
   "status": "partial",
   "theorems": [
    "Verif.Timeframe.C10_accepts_iff_partial",
    "Verif.Timeframe.C10_stored_values_in_range",
    "Verif.Timeframe.C10_fixed_accepts_iff",
    "Verif.Timeframe.C10_fails_check_vN",
    "Verif.Timeframe.C10_fails_small_max_stepsize"
   ],
   "note": "exact acceptance condition proved; it differs from the documentation for check_vN (always TypeError) and for max_stepsize <= 1e-8; NaN and infinite floats not modelled"
  },
  {
   "property": "C11",
   "status": "partial",
   "theorems": [
    "Verif.Registry.C11_part_names_unique",
    "Verif.Registry.C11_rejected_part_partial",
    "Verif.Registry.C11_fails_store_results"
   ],
   "note": "names unique proved; the store_results setting of the first part is overwritten by a refused part"
  },
  {
   "property": "C12",
   "status": "proved",
   "theorems": [
    "Verif.Registry.C12_port_numbers_dense"
   ],
   "note": ""
  },
  {
   "property": "C13",
   "status": "partial",
   "theorems": [
    "Verif.Registry.C13_connections_symmetric",
    "Verif.Registry.C13_connections_symmetric_partial",
    "Verif.Registry.C13_fails_open_port_twice"
   ],
   "note": "proved for every network with a control and for networks without reuse of open ports; false without controls when an open port is used twice"
  },
  {
   "property": "C14",
   "status": "partial",
   "theorems": [
    "Verif.Registry.C14_perfect_pairing",
    "Verif.Registry.C14_part_port_once_partial",
    "Verif.Registry.C14_fails_self_connection",
    "Verif.Registry.C14_fails_open_port_twice",
    "Verif.Registry.C14_fails_silent_replacement"
   ],
   "note": "with a control: built exactly if the connections pair up all ports; without controls self connection and reuse of open ports are accepted; a second call with the same first port replaces the first"
  },
  {
   "property": "C15",
   "status": "partial",
   "theorems": [
    "Verif.Registry.C15_all_ports_connected",
    "Verif.Registry.C15_error_names_unconnected",
    "Verif.Registry.C15_fails_duplicate_port_name"
   ],
   "note": "proved for distinct port names inside a part; false otherwise"
  },
  {
   "property": "C16",
   "status": "proved",
   "theorems": [
    "Verif.Ports.C16_ports_aligned",
    "Verif.Ports.C16_position_accepted_iff",
    "Verif.Ports.C16_fails_for_mixed_directions"
   ],
   "note": "for parts whose initial ports all face inwards, which are all parts that call _add_ports"
  },
  {
   "property": "C17",
   "status": "proved",
   "theorems": [
    "Verif.FlowNet.C17_single_routine",
    "Verif.FlowNet.C17_equations_hold",
    "Verif.FlowNet.C17_idempotent"
   ],
   "note": "for every causal flow net"
  },
  {
   "property": "C18",
   "status": "partial",
   "theorems": [
    "Verif.FlowNet.C18_connector",
    "Verif.FlowNet.C18_connection",
    "Verif.FlowNet.C18_storage_partial",
    "Verif.FlowNet.C18_fails_storage_last_port_from_outside",
    "Verif.FlowNet.C18_valve",
    "Verif.FlowNet.C18_pipe_with_valve"
   ],
   "note": "false for a storage whose last port is calculated from outside"
  },
  {
   "property": "C19",
   "status": "partial",
   "theorems": [
    "Verif.Valve.C19_openings_partition",
    "Verif.Valve.C19_follows_control",
    "Verif.Valve.C19_pipe_with_valve_partial",
    "Verif.Valve.C19_fails_pipe_with_valve"
   ],
   "note": "proved for mixing and splitting valves; the limits of a pipe with valve are not checked"
  },
  {
   "property": "C20",
   "status": "proved",
   "theorems": [
    "Verif.Flows.C20_cells_balanced",
    "Verif.Flows.C20_fails_unsorted"
   ],
   "note": "for sorted port cells, which the code guarantees; without sorting it would be false"
  },
  {
   "property": "C21",
   "status": "proved",
   "theorems": [
    "Verif.Flows.C21_uniform_upwind"
   ],
   "note": ""
  },
  {
   "property": "C22",
   "status": "proved",
   "theorems": [
    "Verif.Cells.C22_conduction_conserves"
   ],
   "note": "for every material"
  },
  {
   "property": "C23",
   "status": "proved",
   "theorems": [
    "Verif.Cells.C23_storage_energy_balance",
    "Verif.Cells.C23_pipe_energy_balance"
   ],
   "note": "for every material"
  },
  {
   "property": "C24",
   "status": "partial",
   "theorems": [
    "Verif.Cells.C24_storage_no_new_extreme_partial",
    "Verif.Cells.C24_pipe_no_new_extreme_partial",
    "Verif.Cells.C24_checked_step_partial",
    "Verif.Water.C24_water_storage_partial",
    "Verif.Water.C24_water_pipe_partial",
    "Verif.Cells.C24_fails_checked_step"
   ],
   "note": "proved for steps that satisfy the combined condition; false for steps that pass the two separate stability checks of the code, which are too weak by a constant factor"
  },
  {
   "property": "C25",
   "status": "proved",
   "theorems": [
    "Verif.Stability.C25_reported_step_passes",
    "Verif.Stability.C25_solver_retry_passes",
    "Verif.Stability.C25_checks_are_honest"
   ],
   "note": "all three stability checks"
  },
  {
   "property": "C26",
   "status": "proved",
   "theorems": [
    "Verif.StepControl.C26_growth_limit_floor",
    "Verif.StepControl.C26_simulation"
   ],
   "note": ""
  },
  {
   "property": "C27",
   "status": "proved",
   "theorems": [
    "Verif.DynBC.C27_within_touched_samples",
    "Verif.DynBC.C27_interpolates",
    "Verif.DynBC.C27_run",
    "Verif.DynBC.C27_constant_series"
   ],
   "note": ""
  },
  {
   "property": "C28",
   "status": "partial",
   "theorems": [
    "Verif.DynBC.C28_survives_iff",
    "Verif.DynBC.C28_long_series_partial",
    "Verif.DynBC.C28_two_more_samples_partial",
    "Verif.DynBC.C28_refused_would_fail",
    "Verif.DynBC.C28_fails_accepted",
    "Verif.Assign.C142_first_series"
   ],
   "note": "exact condition proved; false for series that the length check accepts"
  },
  {
   "property": "C29",
   "status": "partial",
   "theorems": [
    "Verif.Mixing.C29_constant_cp_partial",
    "Verif.Mixing.C29_water_overshoot_partial",
    "Verif.Mixing.C29_fails_water"
   ],
   "note": "true for constant heat capacity; with water the mixed temperature can exceed both inlets, bounded overshoot proved"
  },
  {
   "property": "C30",
   "status": "partial",
   "theorems": [
    "Verif.Mixing.C30_mean_cp_partial",
    "Verif.Mixing.C30_enthalpy_error_partial",
    "Verif.Mixing.C30_fails_water"
   ],
   "note": "true with the heat capacity at the mean temperature; with the heat capacity at the outlet temperature off by more than the 0.5 % stated in the code"
  },
  {
   "property": "C31",
   "status": "proved",
   "theorems": [
    "Verif.Mixing.C31_split_and_pump",
    "Verif.Mixing.C31_connector_passes_inflow",
    "Verif.Mixing.C31_values_in_range"
   ],
   "note": ""
  },
  {
   "property": "C32",
   "status": "partial",
   "theorems": [
    "Verif.PlateHex.C32_energy_balance_partial",
    "Verif.PlateHex.C32_fails_enthalpy"
   ],
   "note": "exact with the heat capacities at the mean temperatures; not in terms of the enthalpies that the connected parts account for"
  },
  {
   "property": "C33",
   "status": "partial",
   "theorems": [
    "Verif.PlateHex.C33_second_law_partial",
    "Verif.PlateHex.C33_zero_flow",
    "Verif.PlateHex.C33_fails_at_limit"
   ],
   "note": "proved unless (R-1)*NTU is exactly 100, where it is false"
  },
  {
   "property": "C34",
   "status": "partial",
   "theorems": [
    "Verif.CondHex.C34_water_flow_partial",
    "Verif.CondHex.C34_fails_negative_flow",
    "Verif.CondHex.C34_gas_flow",
    "Verif.CondHex.C34_bypass_mix",
    "Verif.CondHex.C34_zero_flow",
    "Verif.CondHex.C34_low_flow"
   ],
   "note": "proved for flows >= 0; false for negative water flows"
  },
  {
   "property": "C35",
   "status": "partial",
   "theorems": [
    "Verif.Controls.C35_actuator_limits",
    "Verif.Controls.C35_saturation_partial",
    "Verif.Controls.C35_saturation_slope_partial",
    "Verif.Controls.C35_fails_start_outside"
   ],
   "note": "actuator limits proved; the control value can start outside the saturation with a slope limit"
  },
  {
   "property": "C36",
   "status": "proved",
   "theorems": [
    "Verif.Controls.C36_integral_bounded",
    "Verif.Controls.C36_velocity_bounded"
   ],
   "note": ""
  },
  {
   "property": "C37",
   "status": "proved",
   "theorems": [
    "Verif.Controls.C37_slope_limit",
    "Verif.Controls.C37_slope_over_time"
   ],
   "note": ""
  },
  {
   "property": "C38",
   "status": "partial",
   "theorems": [
    "Verif.Controls.C38_hysteresis_partial",
    "Verif.Controls.C38_fails_inverted"
   ],
   "note": "proved without invert; false with invert=True"
  },
  {
   "property": "C39",
   "status": "partial",
   "theorems": [
    "Verif.Controls.C39_two_sensors_partial",
    "Verif.Controls.C39_fails_inverted"
   ],
   "note": "proved without invert; false with invert=True"
  },
  {
   "property": "C40",
   "status": "partial",
   "theorems": [
    "Verif.Deadtime.C40_range_partial",
    "Verif.Deadtime.C40_exact_delay",
    "Verif.Deadtime.C40_controller",
    "Verif.Deadtime.C40_enough_space",
    "Verif.Deadtime.C40_fails_long_step",
    "Verif.Deadtime.C40_fails_short_steps",
    "Verif.Deadtime.C40_fails_switching"
   ],
   "note": "exact delay proved; false for steps longer than the dead time, for steps below 0.01 s and for switching controllers"
  },
  {
   "property": "C41",
   "status": "partial",
   "theorems": [
    "Verif.Controls.C41_master_partial",
    "Verif.Controls.C41_fails_slope"
   ],
   "note": "proved without slope limit; false with one"
  },
  {
   "property": "C42",
   "status": "partial",
   "theorems": [
    "Verif.Controls.C42_reset_partial",
    "Verif.Controls.C42_fails_integral",
    "Verif.Deadtime.C42_fails_deadtime"
   ],
   "note": "integral term and dead time memory survive a reset"
  },
  {
   "property": "C43",
   "status": "partial",
   "theorems": [
    "Verif.Chp.C43_min_running_time_partial",
    "Verif.Chp.C43_min_pause_partial",
    "Verif.Chp.C43_fails_rejected_attempt"
   ],
   "note": "false if the first attempt of a step is rejected; proved for all other histories"
  },
  {
   "property": "C44",
   "status": "partial",
   "theorems": [
    "Verif.Chp.C44_state_zero_or_above_lower",
    "Verif.Chp.C44_ramp_partial",
    "Verif.Chp.C44_fails_forced_minimum",
    "Verif.Chp.C44_fails_rejected_attempt"
   ],
   "note": "range proved for all histories; ramp limit false when held at the minimum and after a rejected attempt"
  },
  {
   "property": "C45",
   "status": "proved",
   "theorems": [
    "Verif.Chp.C45_emergency_stop",
    "Verif.Chp.C45_inlet_temperature_stop"
   ],
   "note": ""
  },
  {
   "property": "C46",
   "status": "proved",
   "theorems": [
    "Verif.Cells.C46_shutdown",
    "Verif.Cells.C46_no_false_shutdown"
   ],
   "note": ""
  },
  {
   "property": "C47",
   "status": "proved",
   "theorems": [
    "Verif.Tariff.C47_tiered_tariff",
    "Verif.Tariff.C47_tiers_add_up",
    "Verif.Tariff.C47_monotone_continuous",
    "Verif.Tariff.C47_bounds"
   ],
   "note": "for powers given as arrays; a plain number is refused by an assertion"
  },
  {
   "property": "C48",
   "status": "proved",
   "theorems": [
    "Verif.Tariff.C48_balance"
   ],
   "note": "array and scalar version"
  },
  {
   "property": "C49",
   "status": "partial",
   "theorems": [
    "Verif.ModelPred.C49_used_entry",
    "Verif.ModelPred.C49_nearest",
    "Verif.ModelPred.C49_plan_partial",
    "Verif.ModelPred.C49_fails_plan"
   ],
   "note": "the value used is proved; the clipped plan is wrong for lower limits above 0.5, which is hard-coded"
  },
  {
   "property": "C50",
   "status": "proved",
   "theorems": [
    "Verif.Water.C50_water_bounds",
    "Verif.Water.C50_enthalpy_slope",
    "Verif.Water.C50_water_enthalpySlope",
    "Verif.Water.C50_fails_outside_range"
   ],
   "note": "between 0 and 100 degrees; outside it is false"
  },
  {
   "property": "C51",
   "status": "proved",
   "theorems": [
    "Verif.Conductance.C51_lambda_mean",
    "Verif.Conductance.C51_series",
    "Verif.Conductance.C51_parallel",
    "Verif.HexNum.C51_numeric"
   ],
   "note": ""
  },
  {
   "property": "C52",
   "status": "proved",
   "theorems": [
    "Verif.Conductance.C52_surface_between",
    "Verif.Conductance.C52_surface_between_always"
   ],
   "note": "for water between 0 and 100 degC and ambient temperatures between -100 and 200 degC"
  },
  {
   "property": "C53",
   "status": "proved",
   "theorems": [
    "Verif.MovingAvg.C53_window_mean",
    "Verif.MovingAvg.C53_range",
    "Verif.MovingAvg.C53_constant",
    "Verif.MovingAvg.C53_filled",
    "Verif.MovingAvg.C53_equal_weights",
    "Verif.MovingAvg.C53_weighted",
    "Verif.MovingAvg.C53_weighted_filled",
    "Verif.MovingAvg.C53_fails_weights_not_normalised",
    "Verif.MovingAvg.C53_fails_outside_domain"
   ],
   "note": "for windows not longer than the series; the weighted version does not normalise its weights"
  },
  {
   "property": "C54",
   "status": "partial",
   "theorems": [
    "Verif.Meters.C54_sums_partial",
    "Verif.Meters.C54_positive_counters",
    "Verif.Meters.C54_positive_sums",
    "Verif.Meters.C54_power",
    "Verif.Meters.C54_clock",
    "Verif.Meters.C54_backward",
    "Verif.Meters.C54_steps_overcount",
    "Verif.Meters.C54_fails_one_step_ahead"
   ],
   "note": "the step lengths are shifted by one step: counters are one step ahead and the sum of the steps exceeds the simulated time"
  },
  {
   "property": "C55",
   "status": "partial",
   "theorems": [
    "Verif.Meters.C55_unique_partial",
    "Verif.Meters.C55_first_kept_partial",
    "Verif.Meters.C55_fails_volumeflow_replaced",
    "Verif.Meters.C55_fails_volumeflow_refused",
    "Verif.Meters.C55_fails",
    "Verif.Meters.C55_fails_disk_shared"
   ],
   "note": "proved without volume flow meters, which look up the names of mass flow meters"
  },
  {
   "property": "C56",
   "status": "partial",
   "theorems": [
    "Verif.Stats.C56_ordering",
    "Verif.Stats.C56_zero_iff",
    "Verif.Stats.C56_r_squared",
    "Verif.Stats.C56_columns_partial",
    "Verif.Stats.C56_fails_columns",
    "Verif.Stats.C56_adjusted"
   ],
   "note": "one column proved; R^2 of several columns is not that of each column"
  },
  {
   "property": "C57",
   "status": "partial",
   "theorems": [
    "Verif.Stats.C57_well_scaled_partial",
    "Verif.Stats.C57_within_tolerance",
    "Verif.Stats.C57_fails_below_zero",
    "Verif.Stats.C57_fails_negative_tolerance"
   ],
   "note": "proved where the tolerance is positive; false at and below -atol/rtol"
  },
  {
   "property": "C58",
   "status": "partial",
   "theorems": [
    "Verif.Buffers.C58_ports_follow_results_partial",
    "Verif.Buffers.C58_flush_keeps_row",
    "Verif.Buffers.C58_enlarge_keeps_results",
    "Verif.Buffers.C58_fails_after_enlarging",
    "Verif.Buffers.C58_fails_shape",
    "Verif.Buffers.C58_fails"
   ],
   "note": "proved with disk saving and until the first enlargement; false afterwards; systems with heat exchangers stop with an error instead of enlarging"
  },
  {
   "property": "C59",
   "status": "partial",
   "theorems": [
    "Verif.PidTuning.C59_ziegler_nichols_partial",
    "Verif.PidTuning.C59_coefficients_exist",
    "Verif.PidTuning.C59_auto_windup",
    "Verif.PidTuning.C59_factors",
    "Verif.PidTuning.C59_manual",
    "Verif.PidTuning.C59_fails_integral_only",
    "Verif.PidTuning.C59_fails_explanation"
   ],
   "note": "proved for all types but I, which is accepted without coefficients"
  },
  {
   "property": "C60",
   "status": "proved",
   "theorems": [
    "Verif.Registry.C60_grouped_by_kind",
    "Verif.Registry.C60_order_irrelevant",
    "Verif.Registry.C60_built_in_declaration_order"
   ],
   "note": ""
  },
  {
   "property": "C61",
   "status": "partial",
   "theorems": [
    "Verif.StepControl.C61_fails_unstable_corrector_accepted"
   ],
   "note": "false of the code; the predictor part of the claim is in C02"
  },
  {
   "property": "C62",
   "status": "partial",
   "theorems": [
    "Verif.Chp.C62_on_at_start_partial",
    "Verif.Chp.C62_fails_on_at_start"
   ],
   "note": "false if the minimum pause exceeds the minimum running time"
  },
  {
   "property": "C63",
   "status": "partial",
   "theorems": [
    "Verif.Chp.C63_bounded_by_requests_partial",
    "Verif.Chp.C63_fails_upper_limit"
   ],
   "note": "false: the upper end of modulation_range is never used"
  },
  {
   "property": "C64",
   "status": "proved",
   "theorems": [
    "Verif.ChpPower.C64_powers_in_range",
    "Verif.ChpPower.C64_upper_bounds",
    "Verif.ChpPower.C64_residual_heat",
    "Verif.ChpPower.C64_pause"
   ],
   "note": ""
  },
  {
   "property": "C65",
   "status": "partial",
   "theorems": [
    "Verif.ChpPower.C65_full_load_partial",
    "Verif.ChpPower.C65_after_startup_partial",
    "Verif.ChpPower.C65_during_startup_partial",
    "Verif.ChpPower.C65_fails_part_load"
   ],
   "note": "true at full load, false at low modulation"
  },
  {
   "property": "C66",
   "status": "partial",
   "theorems": [
    "Verif.Valve.C66_divisor_port_A_partial",
    "Verif.Valve.C66_fails_port_B",
    "Verif.Valve.C66_fails_initial_opening"
   ],
   "note": "false for port B and for the initial opening"
  },
  {
   "property": "C67",
   "status": "partial",
   "theorems": [
    "Verif.Reset.C67_temperatures_restored_partial",
    "Verif.Reset.C67_valve_openings_restored",
    "Verif.Reset.C67_pump_flow_restored_iff",
    "Verif.Reset.C67_fails_pump_flow",
    "Verif.Reset.C67_fails_pipe_with_pump",
    "Verif.Reset.C67_fails_not_reset"
   ],
   "note": "false: a pipe registered after its pump sets the shared flow to zero; pipes with pump or valve, connectors are not restored"
  },
  {
   "property": "C68",
   "status": "proved",
   "theorems": [
    "Verif.Cells.C68_heat_arrives"
   ],
   "note": ""
  },
  {
   "property": "C69",
   "status": "partial",
   "theorems": [
    "Verif.CondHex.C69_final_check_partial",
    "Verif.CondHex.C69_fails_at_limit"
   ],
   "note": "false for a gas flow exactly at the upper limit"
  },
  {
   "property": "C70",
   "status": "partial",
   "theorems": [
    "Verif.Controls.C70_invert_partial",
    "Verif.Controls.C70_fails_discrete"
   ],
   "note": "true for continuous controllers; the discrete time PID controller ignores invert"
  },
  {
   "property": "C71",
   "status": "partial",
   "theorems": [
    "Verif.Tariff.C71_surcharge_partial",
    "Verif.Tariff.C71_fails_unit"
   ],
   "note": "the surcharge function is right for kW, but the cost functions pass W"
  },
  {
   "property": "C72",
   "status": "partial",
   "theorems": [
    "Verif.Tariff.C72_plan_cost_partial",
    "Verif.Tariff.C72_cost_standstill",
    "Verif.Tariff.C72_cost_below_base_load",
    "Verif.Tariff.C72_cost_surplus",
    "Verif.Tariff.C72_fails_cut"
   ],
   "note": "proved for possible modulations; other entries are changed in the array of the caller"
  },
  {
   "property": "C73",
   "status": "partial",
   "theorems": [
    "Verif.Tariff.C73_selling_price_partial",
    "Verif.Tariff.C73_fails_markup"
   ],
   "note": "aufschlag_verkauf has no effect; 0.8 is hard-coded"
  },
  {
   "property": "C74",
   "status": "partial",
   "theorems": [
    "Verif.ModelPred.C74_possible_power_partial",
    "Verif.ModelPred.C74_fails_upper_limit",
    "Verif.ModelPred.C74_fails_saturation"
   ],
   "note": "lower limit proved; the upper modulation limit is not respected"
  },
  {
   "property": "C75",
   "status": "proved",
   "theorems": [
    "Verif.ModelPred.C75_emergency_off",
    "Verif.ModelPred.C75_emergency_on",
    "Verif.ModelPred.C75_plan_followed",
    "Verif.ModelPred.C75_hysteresis"
   ],
   "note": ""
  },
  {
   "property": "C76",
   "status": "partial",
   "theorems": [
    "Verif.ModelPred.C76_capacities_partial",
    "Verif.ModelPred.C76_restoring_partial",
    "Verif.ModelPred.C76_fails_restore"
   ],
   "note": "capacities stay in range, but are not fully restored"
  },
  {
   "property": "C77",
   "status": "partial",
   "theorems": [
    "Verif.ModelPred.C77_constraints_partial",
    "Verif.ModelPred.C77_fails_first_demand"
   ],
   "note": "the demand of the first step is missing in the prediction"
  },
  {
   "property": "C78",
   "status": "partial",
   "theorems": [
    "Verif.ModelPred.C78_adjusted_plan_partial",
    "Verif.ModelPred.C78_raised_partial",
    "Verif.ModelPred.C78_fails_zero_plan",
    "Verif.ModelPred.C78_fails_unclipped"
   ],
   "note": "proved for plans with entries between 0 and 1 that are not 0 throughout; a plan of zeros becomes NaN, an entry above 1 can be returned unchanged"
  },
  {
   "property": "C79",
   "status": "partial",
   "theorems": [
    "Verif.Conductance.C79_coefficients_positive",
    "Verif.Conductance.C79_below_layers",
    "Verif.Conductance.C79_first_surface_is_ambient",
    "Verif.Conductance.C79_lid_nonneg",
    "Verif.Conductance.C79_fails_first_lid_adiabatic"
   ],
   "note": "shell proved; the lid is adiabatic at the first evaluation"
  },
  {
   "property": "C80",
   "status": "partial",
   "theorems": [
    "Verif.Conductance.C80_series_arguments_kept_partial",
    "Verif.Conductance.C80_parallel_first_is_result",
    "Verif.Conductance.C80_fails_parallel_overwrites_first"
   ],
   "note": "series circuit proved; the parallel circuit overwrites its first argument"
  },
  {
   "property": "C81",
   "status": "proved",
   "theorems": [
    "Verif.Conductance.C81_wall_split",
    "Verif.Conductance.C81_no_insulation",
    "Verif.Conductance.C81_plate_split"
   ],
   "note": ""
  },
  {
   "property": "C82",
   "status": "partial",
   "theorems": [
    "Verif.Conductance.C82_lmtd_between_partial",
    "Verif.Conductance.C82_fails_balanced"
   ],
   "note": "proved for different differences; equal differences give 0/0"
  },
  {
   "property": "C83",
   "status": "partial",
   "theorems": [
    "Verif.HexNum.C83_channel_balance_partial",
    "Verif.HexNum.C83_steady_ratio_partial",
    "Verif.HexNum.C83_steady_equal_partial",
    "Verif.HexNum.C83_fails_one_pass"
   ],
   "note": "true for a pair of channels and for equal channel numbers (two or more passes); false for every exchanger with one pass"
  },
  {
   "property": "C84",
   "status": "partial",
   "theorems": [
    "Verif.HexNum.C84_total_conductance",
    "Verif.HexNum.C84_fails_grid"
   ],
   "note": "every cell gets the area of the whole plate: the conductance is proportional to the number of grid points"
  },
  {
   "property": "C85",
   "status": "partial",
   "theorems": [
    "Verif.HexNum.C85_documented_partial",
    "Verif.HexNum.C85_fails_two_plates"
   ],
   "note": "holds for more than four plates, as documented, which is not checked"
  },
  {
   "property": "C86",
   "status": "proved",
   "theorems": [
    "Verif.HexNum.C86_steady_between_ports",
    "Verif.HexNum.C86_water"
   ],
   "note": ""
  },
  {
   "property": "C87",
   "status": "partial",
   "theorems": [
    "Verif.HexNum.C87_first_port_partial",
    "Verif.HexNum.C87_fails_other_cell",
    "Verif.HexNum.C87_fails_memory"
   ],
   "note": "true for the first port only; the others use other cells or memory behind the array"
  },
  {
   "property": "C88",
   "status": "partial",
   "theorems": [
    "Verif.HexNum.C88_no_new_extreme_partial",
    "Verif.HexNum.C88_fails_checked_step",
    "Verif.HexNum.C88_fails_thin_wall"
   ],
   "note": "proved under a physical bound on the step; the check of the code ignores the heat capacity of the wall"
  },
  {
   "property": "C89",
   "status": "partial",
   "theorems": [
    "Verif.Controls.C89_continuous",
    "Verif.Controls.C89_discrete_partial",
    "Verif.Controls.C89_fails_variable_steps",
    "Verif.Controls.C89_filtered_partial",
    "Verif.Controls.C89_discrete_pd_partial",
    "Verif.Controls.C89_discrete_filtered_partial",
    "Verif.Controls.C89_fails_filter_steps"
   ],
   "note": "continuous time without filter proved; discrete time and the filter of the derivative hold for equal step lengths only"
  },
  {
   "property": "C90",
   "status": "partial",
   "theorems": [
    "Verif.Protocol.C90_needs_setup_partial",
    "Verif.Protocol.C90_default_initialization_partial",
    "Verif.Protocol.C90_fails_no_flow_net"
   ],
   "note": "holds if initialize_sim is only called with build_simenv=True; otherwise a simulation can run without flow net"
  },
  {
   "property": "C91",
   "status": "partial",
   "theorems": [
    "Verif.Protocol.C91_adaptive_partial",
    "Verif.Protocol.C91_fails_only_adaptive",
    "Verif.Protocol.C91_fails_constant_steps",
    "Verif.Protocol.C91_fails_stale_solver"
   ],
   "note": "adaptive steps run; constant steps can never be simulated; set_solver fixes the method at its call"
  },
  {
   "property": "C92",
   "status": "partial",
   "theorems": [
    "Verif.Protocol.C92_start_date_partial",
    "Verif.Protocol.C92_fails_late_disksaving",
    "Verif.Protocol.C92_fails_no_saving"
   ],
   "note": "holds until set_disksaving is called again; a date is demanded although nothing is saved"
  },
  {
   "property": "C93",
   "status": "partial",
   "theorems": [
    "Verif.Protocol.C93_kept_partial",
    "Verif.Protocol.C93_fails_refused_call"
   ],
   "note": "holds if no set_disksaving was refused"
  },
  {
   "property": "C94",
   "status": "partial",
   "theorems": [
    "Verif.NanCheck.C94_goes_on_iff",
    "Verif.NanCheck.C94_stops_partial",
    "Verif.NanCheck.C94_fails_temperatures_only",
    "Verif.NanCheck.C94_fails_between_blocks",
    "Verif.NanCheck.C94_fails_short_run"
   ],
   "note": "exact condition proved; invalid temperatures alone are not noticed"
  },
  {
   "property": "C95",
   "status": "partial",
   "theorems": [
    "Verif.NanCheck.C95_reset_keeps_timeframe_partial",
    "Verif.NanCheck.C95_fails_after_stop"
   ],
   "note": "holds unless the first run was stopped by an invalid value"
  },
  {
   "property": "C96",
   "status": "proved",
   "theorems": [
    "Verif.Cells.C96_storage",
    "Verif.Cells.C96_pipe",
    "Verif.Cells.C96_heated_pipe",
    "Verif.HexNum.C96_heat_exchanger",
    "Verif.Mixing.C96_connector",
    "Verif.Mixing.C96_valves_and_pump",
    "Verif.PlateHex.C96_plate_heat_exchanger",
    "Verif.Attempt.C96_solver"
   ],
   "note": "per kind of part and, for parts with this behaviour, for the solver"
  },
  {
   "property": "C97",
   "status": "proved",
   "theorems": [
    "Verif.Topology.C97_has_result",
    "Verif.Topology.C97_call_ends",
    "Verif.Topology.C97_no_endless_loop",
    "Verif.Topology.C97_one_pass"
   ],
   "note": ""
  },
  {
   "property": "C98",
   "status": "partial",
   "theorems": [
    "Verif.Topology.C98_flows_determined_partial",
    "Verif.Topology.C98_unreached_stuck",
    "Verif.Topology.C98_fails_open_storage"
   ],
   "note": "proved except for storages with two or more ports that were not reached, which keep their old flow"
  },
  {
   "property": "C99",
   "status": "partial",
   "theorems": [
    "Verif.Topology.C99_handed_partial",
    "Verif.Topology.C99_parts_balanced",
    "Verif.Topology.C99_circuit_partial",
    "Verif.Topology.C99_fails_two_valves"
   ],
   "note": "proved for connections over which a flow was handed on, for all parts, and for circuits with one closing connection; two valves in one circuit are accepted with inconsistent flows"
  },
  {
   "property": "C100",
   "status": "partial",
   "theorems": [
    "Verif.Topology.C100_names_partial",
    "Verif.Topology.C100_fails_name"
   ],
   "note": "proved if no part carries the name of one of its flow channels; a heat exchanger called dmd_hex is treated wrongly"
  },
  {
   "property": "C101",
   "status": "partial",
   "theorems": [
    "Verif.Topology.C101_unique_partial",
    "Verif.Topology.C101_fails_order"
   ],
   "note": "proved for at most one storage or branched pipe; false for two"
  },
  {
   "property": "C102",
   "status": "partial",
   "theorems": [
    "Verif.Attempt.C102_heun_partial",
    "Verif.Attempt.C102_second_order",
    "Verif.Attempt.C102_current",
    "Verif.Attempt.C102_fails_pump"
   ],
   "note": "proved for plants all of whose parts have a differential equation; behind pumps, connectors and valves the corrector uses temperatures from the beginning of the step"
  },
  {
   "property": "C103",
   "status": "partial",
   "theorems": [
    "Verif.Attempt.C103_conserved_partial",
    "Verif.Attempt.C103_fails_pump"
   ],
   "note": "as C102; with a pump the energy of a closed circuit drifts in every step"
  },
  {
   "property": "C104",
   "status": "partial",
   "theorems": [
    "Verif.Outliers.C104_few_removed",
    "Verif.Outliers.C104_far_removed_partial",
    "Verif.Outliers.C104_units",
    "Verif.Outliers.C104_fails_short_series",
    "Verif.Outliers.C104_fails_single"
   ],
   "note": "no value of a series of two to ten values is ever removed; the only value of a pandas series is removed"
  },
  {
   "property": "C105",
   "status": "partial",
   "theorems": [
    "Verif.Outliers.C105_half_kept",
    "Verif.Outliers.C105_far_removed",
    "Verif.Outliers.C105_units",
    "Verif.Outliers.C105_fails_majority"
   ],
   "note": "if more than half of the values are equal, all others are removed"
  },
  {
   "property": "C106",
   "status": "partial",
   "theorems": [
    "Verif.Buoyancy.C106_stratified",
    "Verif.Buoyancy.C106_factor",
    "Verif.Buoyancy.C106_mixed_lighter_partial",
    "Verif.Buoyancy.C106_inversion_mixed",
    "Verif.Buoyancy.C106_fails_cold_stable",
    "Verif.Buoyancy.C106_fails_cold_unstable"
   ],
   "note": "proved from 3.5 to 100 degrees; colder water is mixed where it is stable and not mixed where it is unstable"
  },
  {
   "property": "C107",
   "status": "partial",
   "theorems": [
    "Verif.Buoyancy.C107_stronger_partial",
    "Verif.Buoyancy.C107_fails_transition"
   ],
   "note": "proved on both sides of the transition between laminar and turbulent flow, where the Nusselt number falls"
  },
  {
   "property": "C108",
   "status": "partial",
   "theorems": [
    "Verif.Attempt.C108_simulation_partial",
    "Verif.Attempt.C108_storage_partial",
    "Verif.Attempt.C108_pipe_partial",
    "Verif.Attempt.C108_fails_checked_pipe"
   ],
   "note": "proved if every part keeps the range in one explicit Euler step, with a sufficient step length for storages and pipes; the stability check of the code allows longer steps, which leave the range"
  },
  {
   "property": "C109",
   "status": "partial",
   "theorems": [
    "Verif.PortCond.C109_direct_partial",
    "Verif.PortCond.C109_pump_partial",
    "Verif.PortCond.C109_idle_partial",
    "Verif.PortCond.C109_disabled",
    "Verif.PortCond.C109_fails_sizes",
    "Verif.PortCond.C109_fails_split",
    "Verif.PortCond.C109_fails_chain"
   ],
   "note": "proved for direct connections, for pumps and for equal parts at an idle connector; heat is lost at connectors between unequal parts, at valves and at two pumps in a row"
  },
  {
   "property": "C110",
   "status": "partial",
   "theorems": [
    "Verif.PortCond.C110_order_partial",
    "Verif.PortCond.C110_again_partial",
    "Verif.PortCond.C110_fails_order",
    "Verif.PortCond.C110_fails_again",
    "Verif.PortCond.C110_fails_boundary"
   ],
   "note": "proved if parts without differential equation are connected only to parts with one; false for two in a row and for a pump at a boundary condition"
  },
  {
   "property": "C111",
   "status": "partial",
   "theorems": [
    "Verif.PortCond.C111_plant_partial",
    "Verif.PortCond.C111_pumps_partial",
    "Verif.PortCond.C111_step_partial"
   ],
   "note": "proved for pipes and storages connected directly or through single pumps (steps: connected directly, constant heat capacity and density); false with connectors, valves and rows of pumps (C109_fails_sizes, C109_fails_split, C109_fails_chain) and, over a step, with a single pump (C103_fails_pump)"
  },
  {
   "property": "C112",
   "status": "partial",
   "theorems": [
    "Verif.Cells.C112_storage_partial",
    "Verif.Cells.C112_pipe_partial",
    "Verif.HexNum.C112_hex_partial",
    "Verif.Attempt.C112_simulation_partial",
    "Verif.Attempt.C112_fails_heater"
   ],
   "note": "proved for constant material properties, equal coefficients and equal step lengths; false for heated pipes: the one that starts hotter ends colder"
  },
  {
   "property": "C113",
   "status": "partial",
   "theorems": [
    "Verif.MeterFlow.C113_pipe_partial",
    "Verif.MeterFlow.C113_pump_partial",
    "Verif.MeterFlow.C113_valve_partial",
    "Verif.MeterFlow.C113_storage_partial",
    "Verif.MeterFlow.C113_supply_partial",
    "Verif.MeterFlow.C113_water_partial",
    "Verif.MeterFlow.C113_outside",
    "Verif.MeterFlow.C113_fails_demand",
    "Verif.MeterFlow.C113_fails_gas",
    "Verif.MeterFlow.C113_fails_plate",
    "Verif.MeterFlow.C113_fails_connector"
   ],
   "note": "false for the demand side and the flue gas side of heat exchangers (flow of the other channel), for plate heat exchangers and connectors (zero)"
  },
  {
   "property": "C114",
   "status": "partial",
   "theorems": [
    "Verif.Resample.C114_range_partial",
    "Verif.Resample.C114_monotone_partial",
    "Verif.Resample.C114_total_partial",
    "Verif.Resample.C114_fails_uneven",
    "Verif.Resample.C114_fails_incomplete",
    "Verif.Resample.C114_fails_not_divisor",
    "Verif.Resample.C114_fails_counter",
    "Verif.Resample.C114_fails_ahead"
   ],
   "note": "range, gaps and monotonicity for all series; totals for even series that fit the grid, false for all others, in particular for the uneven steps of a simulation"
  },
  {
   "property": "C115",
   "status": "partial",
   "theorems": [
    "Verif.Modules.C115_accepted_partial",
    "Verif.Modules.C115_channels_partial",
    "Verif.Modules.C115_fails_flow",
    "Verif.Modules.C115_fails_area"
   ],
   "note": "always accepted; a channel on each side from three wanted plates on (two with several passes); false for small circulation flows and small buildings"
  },
  {
   "property": "C116",
   "status": "partial",
   "theorems": [
    "Verif.PipeSpecs.C116_geometry_partial",
    "Verif.PipeSpecs.C116_accepts_partial",
    "Verif.PipeSpecs.C116_ends_partial",
    "Verif.PipeSpecs.C116_fails_type",
    "Verif.PipeSpecs.C116_fails_erased"
   ],
   "note": "inner cross section and geometry for every interpolation; false for the wall: always interpolated in one type of pipes, and rows of the table with a wanted cross section are erased"
  },
  {
   "property": "C117",
   "status": "partial",
   "theorems": [
    "Verif.Modules.C117_builds_partial",
    "Verif.Modules.C117_fails_el"
   ],
   "note": "building proved for segment names of digits; false for the mode el, which gets no CHP controller"
  },
  {
   "property": "C118",
   "status": "partial",
   "theorems": [
    "Verif.Modules.C118_names_partial",
    "Verif.Modules.C118_fails_default",
    "Verif.Modules.C118_fails_segments"
   ],
   "note": "proved for segment names of digits, without the two variants of hot water supply in one segment; false otherwise"
  },
  {
   "property": "C119",
   "status": "partial",
   "theorems": [
    "Verif.Modules.C119_plants_partial",
    "Verif.Modules.C119_fails_second",
    "Verif.Modules.C119_fails_old"
   ],
   "note": "proved without own pipe in the dictionary; with one the first call removes it"
  },
  {
   "property": "C120",
   "status": "partial",
   "theorems": [
    "Verif.Geometry.C120_pipe_partial",
    "Verif.Geometry.C120_storage_partial",
    "Verif.Geometry.C120_positions_partial",
    "Verif.Geometry.C120_fails_shell",
    "Verif.Geometry.C120_fails_volume",
    "Verif.Geometry.C120_fails_lids",
    "Verif.Geometry.C120_fails_insulation"
   ],
   "note": "the cylinder is proved for all accepted pipes and for storages with a possible geometry; impossible storages are accepted, the heat capacity of top and bottom is missing, an insulation of conductivity zero is accepted and divides by zero"
  },
  {
   "property": "C121",
   "status": "partial",
   "theorems": [
    "Verif.Geometry.C121_power_partial",
    "Verif.Geometry.C121_fails_last"
   ],
   "note": "proved for every accepted choice; no range with the last cell is accepted"
  },
  {
   "property": "C122",
   "status": "partial",
   "theorems": [
    "Verif.Geometry.C122_all_partial",
    "Verif.Geometry.C122_each_partial",
    "Verif.Geometry.C122_fails_table"
   ],
   "note": "proved for all ports at once and for areas of each port; nominal diameters of single ports always end in an exception"
  },
  {
   "property": "C123",
   "status": "partial",
   "theorems": [
    "Verif.HexGeo.C123_areas_partial",
    "Verif.HexGeo.C123_totals",
    "Verif.HexGeo.C123_total_numeric",
    "Verif.HexGeo.C123_mass_partial",
    "Verif.HexGeo.C123_fails_ports",
    "Verif.HexGeo.C123_fails_back",
    "Verif.HexGeo.C123_fails_mass_base",
    "Verif.HexGeo.C123_fails_thickness",
    "Verif.HexGeo.C123_fails_depth",
    "Verif.HexGeo.C123_fails_total"
   ],
   "note": "areas, and agreement of width and mass for channels and plates; volumes of the three ways differ by ports, base mass with channel width ends in an exception, negative thickness is accepted"
  },
  {
   "property": "C124",
   "status": "partial",
   "theorems": [
    "Verif.NormErr.C124_units_partial",
    "Verif.NormErr.C124_divisors",
    "Verif.NormErr.C124_fails_mse",
    "Verif.NormErr.C124_fails_zero",
    "Verif.NormErr.C124_fails_negative"
   ],
   "note": "proved for RMSE, MSD and MAE (other zero of the scale: with IQR and range only); the default, a normalised MSE, has a unit; with a negative mean the order is reversed"
  },
  {
   "property": "C125",
   "status": "proved",
   "theorems": [
    "Verif.FlowAlpha.C125_more_flow",
    "Verif.FlowAlpha.C125_losses",
    "Verif.FlowAlpha.C125_wall",
    "Verif.FlowAlpha.C125_distance"
   ],
   "note": "water between 0 and 100 degC"
  },
  {
   "property": "C126",
   "status": "partial",
   "theorems": [
    "Verif.FlowAlpha.C126_more_flow_partial",
    "Verif.FlowAlpha.C126_value_partial",
    "Verif.FlowAlpha.C126_wall",
    "Verif.FlowAlpha.C126_fails_short",
    "Verif.FlowAlpha.C126_fails_correction"
   ],
   "note": "proved for plates (or cells at a distance of) at least ten hydraulic diameters; false for cells near the inlet, and not a number for a negative correction"
  },
  {
   "property": "C127",
   "status": "partial",
   "theorems": [
    "Verif.PlatePower.C127_supply_partial",
    "Verif.PlatePower.C127_demand_partial",
    "Verif.PlatePower.C127_fails_limit"
   ],
   "note": "proved for plates at least ten times as long as the hydraulic diameter and not exactly at the limit of the formula, where it is false"
  },
  {
   "property": "C128",
   "status": "partial",
   "theorems": [
    "Verif.HotSurface.C128_cylinder",
    "Verif.HotSurface.C128_horizontal_partial",
    "Verif.HotSurface.C128_fails_horizontal"
   ],
   "note": "proved for cylinders and vertical planes; for horizontal planes proved within each range of the correlation, false across its change"
  },
  {
   "property": "C129",
   "status": "partial",
   "theorems": [
    "Verif.Attempt.C129_converges_partial",
    "Verif.Attempt.C129_second_order_partial",
    "Verif.Attempt.C129_smooth_partial",
    "Verif.Attempt.C129_water_pipe_partial",
    "Verif.Attempt.C129_linear_partial",
    "Verif.Attempt.C129_fails_second_order"
   ],
   "note": "first order for all plants without a circle of pumps, connectors and valves; second order for plants without them (for twice differentiable right-hand sides near the solution; checked for a pipe of water), false with a pump; flows, control and boundary values constant, parts without memory"
  },
  {
   "property": "C130",
   "status": "partial",
   "theorems": [
    "Verif.Attempt.C130_approaches_partial",
    "Verif.Attempt.C130_forgets_partial",
    "Verif.Attempt.C130_unique_partial",
    "Verif.Cells.C130_storage_partial",
    "Verif.Cells.C130_pipe_partial"
   ],
   "note": "proved for constant flows, coefficients and boundary values and step lengths for which the explicit Euler step contracts; that it does is proved for storages and pipes with a loss coefficient, from their flows and conductances"
  },
  {
   "property": "C131",
   "status": "partial",
   "theorems": [
    "Verif.Cells.C131_pipe",
    "Verif.Cells.C131_storage",
    "Verif.Cells.C131_fails_check",
    "Verif.FlowAlpha.C131_losses",
    "Verif.Attempt.C131_simulation_partial"
   ],
   "note": "differential and heat losses proved; the stability check of the code is not symmetric, so the statement on plants is for steps which both accept"
  },
  {
   "property": "C132",
   "status": "partial",
   "theorems": [
    "Verif.Cells.C132_pipe_partial",
    "Verif.FlowAlpha.C132_losses_rest",
    "Verif.FlowAlpha.C132_fails_losses",
    "Verif.Attempt.C132_simulation_partial"
   ],
   "note": "proved for equal conductances to the ambient (true without flow for pipes that are not vertical); with flow false: every cell of the second pipe conducts more because distances count from its own inlet; steps which both accept"
  },
  {
   "property": "C133",
   "status": "partial",
   "theorems": [
    "Verif.Perf.C133_measures_partial",
    "Verif.Perf.C133_one_zero_partial",
    "Verif.Perf.C133_fails_r2",
    "Verif.Perf.C133_fails_zeros",
    "Verif.Perf.C133_fails_index",
    "Verif.Perf.C133_lengths"
   ],
   "note": "proved for series with the same index in which no row has exactly one zero; R squared is larger than the coefficient of determination (divisor of the variance), rows with one zero are dropped, different indices are aligned"
  },
  {
   "property": "C134",
   "status": "partial",
   "theorems": [
    "Verif.Attempt.C134_same_steps_partial",
    "Verif.StepControl.C134_fails_tolerance"
   ],
   "note": "proved for equal step lengths (accepted at the first attempt); false for the choice of step lengths: the error is divided by the number of cells of all plants, so idle parts make any step acceptable"
  },
  {
   "property": "C135",
   "status": "partial",
   "theorems": [
    "Verif.StepControl.C135_within_partial",
    "Verif.StepControl.C135_bound_partial",
    "Verif.StepControl.C135_fails_cell",
    "Verif.StepControl.C135_fails_hexnum"
   ],
   "note": "first half proved for parts whose num_gp is the number of cells, false for heat exchangers with numeric walls (three cells per num_gp); second half proved with the factor root of the number of cells, false without"
  },
  {
   "property": "C136",
   "status": "partial",
   "theorems": [
    "Verif.Attempt.C136_simulation_partial",
    "Verif.StepControl.C136_error_partial",
    "Verif.StepControl.C136_fails_order"
   ],
   "note": "proved for steps accepted at the first attempt; false after stability violations: the predictor stops at the first unstable part, so number of failed attempts and later growth of steps depend on the order"
  },
  {
   "property": "C137",
   "status": "partial",
   "theorems": [
    "Verif.Plan.C137_schedule_partial",
    "Verif.Plan.C137_rows",
    "Verif.Resample.C137_profile_partial",
    "Verif.Plan.C137_fails_long_steps",
    "Verif.Plan.C137_fails_reset",
    "Verif.Resample.C137_fails_begin"
   ],
   "note": "proved for steps not longer than opt_every and profiles beginning at a multiple of opt_every after midnight; false for longer steps (plans lag behind), after a reset (no plan at all) and for profiles beginning at other times"
  },
  {
   "property": "C138",
   "status": "partial",
   "theorems": [
    "Verif.Sensor.C138_named_partial",
    "Verif.Sensor.C138_index",
    "Verif.Sensor.C138_refused",
    "Verif.Sensor.C138_pipe",
    "Verif.Sensor.C138_valves",
    "Verif.Sensor.C138_added_partial",
    "Verif.Sensor.C138_valve",
    "Verif.Sensor.C138_fails_name",
    "Verif.Sensor.C138_fails_hexnum",
    "Verif.Sensor.C138_fails_condensing"
   ],
   "note": "proved for all parts with one temperature per cell and distinct port names; false for heat exchangers with a grid of temperatures (numeric and condensing), where the sensor reads nothing, several or other temperatures, and for added ports named like an existing one"
  },
  {
   "property": "C139",
   "status": "partial",
   "theorems": [
    "Verif.HexNum.C139_between",
    "Verif.HexNum.C139_water",
    "Verif.HexNum.C139_energy",
    "Verif.HexNum.C139_solvable",
    "Verif.HexNum.C139_step_partial",
    "Verif.HexNum.C139_fails_unsolved"
   ],
   "note": "proved where the equation of the step is solved; unique solvability proved for properties not depending on temperature; the solver step takes the last iterate also if the root search reports failure"
  },
  {
   "property": "C140",
   "status": "partial",
   "theorems": [
    "Verif.Saving.C140_saved_partial",
    "Verif.Saving.C140_fails_heat_exchanger",
    "Verif.Saving.C140_fails_rows",
    "Verif.Saving.C140_fails_negative",
    "Verif.Saving.C140_fails_other_parts",
    "Verif.Saving.C140_fails_refused",
    "Verif.Saving.C140_fails_uncompressed"
   ],
   "note": "proved for all plants of parts with one column per cell; false of numeric heat exchangers, of parts without grid points, of numbers below the range, after a refused call and without compression"
  },
  {
   "property": "C141",
   "status": "partial",
   "theorems": [
    "Verif.Saving.C141_parts_partial",
    "Verif.Saving.C141_vectors",
    "Verif.Saving.C141_meters_partial",
    "Verif.Saving.C141_fails_part_meters",
    "Verif.Saving.C141_fails_part_vectors",
    "Verif.Saving.C141_fails_name",
    "Verif.Saving.C141_fails_slash"
   ],
   "note": "proved for all stores; false of parts named meters or sim_vecs or whose name contains meters, and of meters whose name contains a slash"
  },
  {
   "property": "C142",
   "status": "partial",
   "theorems": [
    "Verif.Assign.C142_target_partial",
    "Verif.Assign.C142_written",
    "Verif.Assign.C142_same_stamps_partial",
    "Verif.Assign.C142_refused_partial",
    "Verif.Assign.C142_first_series",
    "Verif.Assign.C142_further_series",
    "Verif.Assign.C142_fails_minus_one",
    "Verif.Assign.C142_fails_subsecond",
    "Verif.Assign.C142_fails_refused"
   ],
   "note": "proved for all plants and series with stamps at full seconds; false of the last element by the number minus one and of numbers below the range (error when the simulation starts), of stamps between seconds (second series refused), and after a refused first call (its stamps stay)"
  },
  {
   "property": "C143",
   "status": "partial",
   "theorems": [
    "Verif.Assign.C143_given_partial",
    "Verif.Assign.C143_fails_valve_series",
    "Verif.Assign.C143_fails_mixing_valve",
    "Verif.Assign.C143_fails_range"
   ],
   "note": "proved for pumps, pipes with pump, CHP plants, and constant openings of pipes with valve; false for series of pipes with valve (written to the mass flow) and mixing valves (always refused); openings are not checked"
  },
  {
   "property": "C144",
   "status": "partial",
   "theorems": [
    "Verif.TimeLoop.C144_disk_partial",
    "Verif.TimeLoop.C144_memory_partial",
    "Verif.TimeLoop.C144_fails_enlarged"
   ],
   "note": "proved with disk saving whenever the run can be finished, and without for runs that fit into the first buffer; false afterwards: these arrays are not enlarged"
  },
  {
   "property": "C145",
   "status": "partial",
   "theorems": [
    "Verif.Loading.C145_tables",
    "Verif.Loading.C145_loads_partial",
    "Verif.Loading.C145_joined_partial",
    "Verif.Loading.C145_fails_name",
    "Verif.Loading.C145_fails_no_vectors",
    "Verif.Loading.C145_fails_only_vectors"
   ],
   "note": "dictionary proved for all files with the vectors of the simulation as only table at the root; the joined table omits parts whose name contains sim_vecs; asking for the vectors only, or files without them, are errors"
  },
  {
   "property": "C146",
   "status": "partial",
   "theorems": [
    "Verif.Cells.C146_stays_partial",
    "Verif.Cells.C146_fails_lid"
   ],
   "note": "proved for any material and flows if shell and lids do not cool upper cells faster than lower ones; false of storages losing heat through the upper lid, which cools the top cell below its neighbour"
  },
  {
   "property": "C147",
   "status": "partial",
   "theorems": [
    "Verif.Chp.C147_cycle_partial",
    "Verif.Chp.C147_pause_partial",
    "Verif.Chp.C147_fails_rejected_attempt"
   ],
   "note": "proved exactly if no first attempt of a step is rejected and otherwise with an allowance of one attempt for all starts together; false without the allowance"
  },
  {
   "property": "C148",
   "status": "partial",
   "theorems": [
    "Verif.Outliers.C148_spike_partial",
    "Verif.Outliers.C148_constant_partial",
    "Verif.Outliers.C148_units",
    "Verif.Outliers.C148_fails_ramp",
    "Verif.Outliers.C148_fails_alternating"
   ],
   "note": "exact condition for a single spike in a constant series and for constant series; independent of units; false of straight lines, which lose both ends, and of alternating series, which lose everything but the ends"
  },
  {
   "property": "C149",
   "status": "partial",
   "theorems": [
    "Verif.FlowLength.C149_pipe_partial",
    "Verif.FlowLength.C149_lid_partial",
    "Verif.FlowLength.C149_fails_storage",
    "Verif.FlowLength.steady_exists"
   ],
   "note": "proved for pipes at rest after any history; false of storages: the length of the flow passed for the shell is the height of one cell, so of two grids the finer one always loses more in the steady state (which exists for every cell warmer than the ambient)"
  },
  {
   "property": "C150",
   "status": "partial",
   "theorems": [
    "Verif.RollCentered.C150_multiple_partial",
    "Verif.RollCentered.C150_periods",
    "Verif.RollCentered.C150_periods_other",
    "Verif.RollCentered.C150_fails_lag",
    "Verif.RollCentered.C150_fails_end",
    "Verif.RollCentered.C150_fails_short"
   ],
   "note": "proved for windows which are a multiple of the spacing; other windows lag by half a spacing or a whole one, lose the last values, and give no value at all if shorter than the spacing"
  },
  {
   "property": "C151",
   "status": "partial",
   "theorems": [
    "Verif.Package.C151_safe",
    "Verif.Package.C151_packaged_partial",
    "Verif.Package.C151_fails_log",
    "Verif.Package.C151_fails_suffix",
    "Verif.Package.C151_fails_count"
   ],
   "note": "nothing is ever overwritten; sorting is proved if identifiers occur only in the own logs and the feature stands before the number; false if the log of number 1 is missing and one of number 12 exists (results of 1 land in the folder of 12), for features after the number as documented (only the first simulation is packaged), and for the printed count"
  },
  {
   "property": "C152",
   "status": "partial",
   "theorems": [
    "Verif.RootFind.C152_linear_partial",
    "Verif.RootFind.C152_newton_partial",
    "Verif.RootFind.C152_newton_goes_on_partial",
    "Verif.RootFind.C152_small_partial",
    "Verif.RootFind.C152_near_partial",
    "Verif.RootFind.C152_fails_flat",
    "Verif.RootFind.C152_fails_maxiter",
    "Verif.RootFind.C152_fails_coupled",
    "Verif.RootFind.C152_fails_mirror",
    "Verif.RootFind.C152_fails_end",
    "Verif.RootFind.C152_fails_tolerance"
   ],
   "note": "exact for independent linear equations; residual bound when the secant method stops by a short step; false for functions without slope between the starting points, when the passes run out (the older iterate is returned), for coupled equations, and for root_secant with roots more than ten per cent away (values not exchanged with the ends: first step to the mirror image, wrong end returned, infinite) and its test (f - tol)^2 < tol"
  },
  {
   "property": "C153",
   "status": "partial",
   "theorems": [
    "Verif.Cells.C153_cools_partial",
    "Verif.Cells.C153_strict_partial",
    "Verif.Cells.C153_backward_partial",
    "Verif.Cells.C153_faster_partial",
    "Verif.Cells.C153_fails_neighbour",
    "Verif.Water.C153_water_partial"
   ],
   "note": "false if the part behind the outlet is hotter than the end of the pipe (conduction against the flow); more flow compared for constant material and the same conductances to the ambient"
  },
  {
   "property": "C154",
   "status": "partial",
   "theorems": [
    "Verif.FlowIndex.C154_storage_partial",
    "Verif.FlowIndex.C154_branched_partial",
    "Verif.FlowIndex.C154_other",
    "Verif.FlowIndex.C154_fails_no_ports",
    "Verif.FlowIndex.C154_fails_name"
   ],
   "note": "proved for all parts whose ports have different names; false for ports named like others and for branched pipes without added ports (new_ports=None), which have no cell for their outlet"
  },
  {
   "property": "C155",
   "status": "partial",
   "theorems": [
    "Verif.ReCorr.C155_point",
    "Verif.ReCorr.C155_zero",
    "Verif.ReCorr.C155_unique_partial",
    "Verif.ReCorr.C155_evaluated",
    "Verif.ReCorr.C155_fails_gap",
    "Verif.ReCorr.C155_fails_negative",
    "Verif.ReCorr.C155_fails_numeric",
    "Verif.ReCorr.C155_fails_temperatures"
   ],
   "note": "proved: the deviation is zero exactly for corrections which meet all coefficients, there is at most one of them and it is positive if a coefficient has to be raised; false: coefficients at the jump to turbulence are met by none, smaller ones only by a negative correction which makes the coefficient without flow NaN; it raises for arrays of temperatures and for numeric heat exchangers (unless the number of points is twice that of the cells). The minimiser of scipy is not modelled"
  },
  {
   "property": "C156",
   "status": "proved",
   "theorems": [
    "Verif.PolyReg.C156_features",
    "Verif.PolyReg.C156_prediction",
    "Verif.PolyReg.C156_polynomial",
    "Verif.PolyReg.C156_complete",
    "Verif.PolyReg.C156_hex",
    "Verif.PolyReg.C156_fails_empty"
   ],
   "note": "proved for every setting with at least one feature (without any, the table cannot be built); the enumeration of scikit-learn (itertools) is part of the model, the fit itself is arbitrary"
  },
  {
   "property": "C157",
   "status": "partial",
   "theorems": [
    "Verif.Fit.C157_forward",
    "Verif.Fit.C157_backward",
    "Verif.Fit.C157_compare_partial",
    "Verif.Fit.C157_fails_shifted",
    "Verif.Fit.C157_fails_disjoint",
    "Verif.Fit.C157_fails_gap"
   ],
   "note": "proved for series that begin in the same interval of the grid and end in the same one; false otherwise: series of equal length without a common time get the indicators of a perfect prediction whatever their values are, a first time without value is counted, and an even series with other times than the grid is moved to earlier times; pandas (resample, reindex, concat) is transcribed, not verified"
  },
  {
   "property": "C158",
   "status": "partial",
   "theorems": [
    "Verif.Maint.C158_discount",
    "Verif.Maint.C158_prices_partial",
    "Verif.Maint.C158_rising_partial",
    "Verif.Maint.C158_perkWh_partial",
    "Verif.Maint.C158_fails_falling",
    "Verif.Maint.C158_fails_negative",
    "Verif.Maint.C158_fails_jump"
   ],
   "note": "the fit is unique and known exactly; within 5.3 % of the list from 6 to 80 kW and rising up to 76.5 kW; false for larger plants, whose cost falls from 77 kW on and is negative from 121 kW on, and at 10 kW for the cost per kWh"
  },
  {
   "property": "C159",
   "status": "partial",
   "theorems": [
    "Verif.Report.C159_counters_partial",
    "Verif.Report.C159_fails_steps_mean",
    "Verif.Report.C159_fails_mean_iff",
    "Verif.Report.C159_fails_success",
    "Verif.Report.C159_fails_lost",
    "Verif.Report.C159_fails_no_report"
   ],
   "note": "counters, repetitions and simulated time hold for every completed run of the adaptive solver; false: the success flag is set in every report (also beside \"failed at step\"), a failure in the second block is not reported at all and a later one raises, the number of steps is one too high, and the mean counts the last step twice"
  },
  {
   "property": "C160",
   "status": "partial",
   "theorems": [
    "Verif.Controls.C160_rest_continuous_partial",
    "Verif.Controls.C160_rest_discrete_partial",
    "Verif.Controls.C160_acts_up_partial",
    "Verif.Controls.C160_acts_down_partial",
    "Verif.Controls.C160_acts_discrete_partial",
    "Verif.Controls.C160_fails_windup",
    "Verif.Controls.C160_fails_discrete"
   ],
   "note": "holds if the anti-windup leaves room for the saturation (continuous: kp*deviation + ki*limit reaches it; discrete: limit not below it); false otherwise, in particular for discrete controllers with automatic anti-windup and ki > 1, because the limit X/ki meant for the integral is applied to the control value; PID with derivative only for rest, PI for a lasting deviation"
  },
  {
   "property": "C161",
   "status": "proved",
   "theorems": [
    "Verif.Cells.C161_near_exact",
    "Verif.Cells.C161_refining"
   ],
   "note": "constant material properties; the conduction of the water at the outlet into a part of another temperature is excluded"
  },
  {
   "property": "C162",
   "status": "partial",
   "theorems": [
    "Verif.Controls.C162_stays_partial",
    "Verif.Controls.C162_reaches_partial",
    "Verif.Controls.C162_switching_partial",
    "Verif.Controls.C162_fails_inverted",
    "Verif.Controls.C162_fails_slope"
   ],
   "note": "holds for controllers that are not inverted, have no slope limit and no master; false for inverted controllers, whose control value changes its sign in every call inside the band, and with a slope limit, where the control value stays between its two positions inside the band"
  },
  {
   "property": "C163",
   "status": "partial",
   "theorems": [
    "Verif.Air.C163_pressure",
    "Verif.Air.C163_water_pos",
    "Verif.Air.C163_water_rises_partial",
    "Verif.Air.C163_fails_cold",
    "Verif.Air.C163_agree_partial",
    "Verif.Air.C163_fails_agree",
    "Verif.Air.C163_dry",
    "Verif.Air.C163_ideal_gas"
   ],
   "note": "the water content rises from -28 to 80 degrees and agrees with the saturation pressure within 2 % from 0 to 80 degrees; false at the cold end of the documented range: from -30 to -29 degrees it falls with the temperature, and at -30 degrees it is more than a quarter too large"
  },
  {
   "property": "C164",
   "status": "partial",
   "theorems": [
    "Verif.Water.C164_rho_falls",
    "Verif.Water.C164_rho_rises",
    "Verif.Water.C164_lam_rises",
    "Verif.Water.C164_ny_falls_partial",
    "Verif.Water.C164_fails_viscosity",
    "Verif.Water.C164_Pr_falls",
    "Verif.Water.C164_beta",
    "Verif.Water.C164_Pr_fits_partial",
    "Verif.Water.C164_fails_Pr",
    "Verif.Water.C164_beta_fits_partial",
    "Verif.Water.C164_fails_sign"
   ],
   "note": "viscosity falls up to 96 degrees but rises from 98 to 100; the Prandtl number fits within 8 % up to 96 degrees but is 17 % too small at 100; the expansion coefficient fits the density within 2 % from 15 degrees on, but between 3.5 and 3.8 degrees it is negative although the density already falls"
  },
  {
   "property": "C165",
   "status": "partial",
   "theorems": [
    "Verif.Controls.C165_starts_partial",
    "Verif.Controls.C165_completes_partial",
    "Verif.Controls.C165_switching_partial",
    "Verif.Controls.C165_fails_inversion",
    "Verif.Controls.C165_fails_order"
   ],
   "note": "holds for controllers that are not inverted, have no slope limit and no master, and an activation value not above the setpoint; false without stratification, where the controller stays off however cold the upper sensor is, and for an activation value above the setpoint, which the code accepts and where nothing protects against switching in consecutive calls"
  },
  {
   "property": "C166",
   "status": "partial",
   "theorems": [
    "Verif.ByName.C166_number",
    "Verif.ByName.C166_found",
    "Verif.ByName.C166_complete_partial",
    "Verif.ByName.C166_reads",
    "Verif.ByName.C166_fails_identifier",
    "Verif.ByName.C166_fails_all",
    "Verif.ByName.C166_fails_plain",
    "Verif.ByName.C166_database_partial",
    "Verif.ByName.C166_fails_which",
    "Verif.ByName.C166_fails_path",
    "Verif.ByName.C166_fails_separator"
   ],
   "note": "holds for folders that contain only numbered simulations of one set, and for all databases of the package on Windows; false otherwise: the identifier is not used for the selection, set_numbers=None always fails, any entry without a digit makes every call fail, which=[...] and path=... always fail, and with slashes as separators the result is empty without a message"
  },
  {
   "property": "C167",
   "status": "partial",
   "theorems": [
    "Verif.Idle.C167_evens_out_partial",
    "Verif.Idle.C167_limit_partial",
    "Verif.Idle.C167_fails_long_step",
    "Verif.Idle.C167_fails_capacity"
   ],
   "note": "proved for a heat capacity that is the same at all temperatures and steps below the stability limit; with a heat capacity depending on the temperature the energy is not kept exactly (C167_fails_capacity), and longer steps make the deviations grow (C167_fails_long_step)"
  },
  {
   "property": "C168",
   "status": "partial",
   "theorems": [
    "Verif.Label.C168_label_partial",
    "Verif.Label.C168_refused",
    "Verif.Label.C168_percent",
    "Verif.Label.C168_no_unit",
    "Verif.Label.C168_fails_dollar",
    "Verif.Label.C168_fails_empty",
    "Verif.Label.C168_number",
    "Verif.Label.C168_order",
    "Verif.Label.C168_fails_sign"
   ],
   "note": "a dollar sign in a label is accepted if there is a unit (operator precedence in the assertion), an empty label becomes a comma outside of any formula, and negative numbers below -1000 lose digits that positive ones keep"
  },
  {
   "property": "C169",
   "status": "partial",
   "theorems": [
    "Verif.Arrival.C169_arrival_partial",
    "Verif.Arrival.C169_fails_long_step"
   ],
   "note": "proved for heat capacities and a flow that are constant, without conduction through outlet and shell, and steps below the stability limit (with longer steps the change may never arrive, C169_fails_long_step)"
  },
  {
   "property": "C170",
   "status": "partial",
   "theorems": [
    "Verif.Arrival.C170_charged_partial"
   ],
   "note": "proved for an insulated storage with constant heat capacities and flow, without conduction through the outlet, and steps below the stability limit; as in C169 longer steps may never arrive"
  },
  {
   "property": "C171",
   "status": "partial",
   "theorems": [
    "Verif.SecondLaw.C171_storage_partial",
    "Verif.SecondLaw.C171_pipe_partial",
    "Verif.SecondLaw.C171_simulation_partial",
    "Verif.SecondLaw.C171_entropy_partial",
    "Verif.SecondLaw.C171_fails_long_step"
   ],
   "note": "proved for constant heat capacities and steps no longer than the heat capacity of a cell divided by everything connected to it; C171_fails_long_step: a longer step which is accepted lowers the entropy"
  },
  {
   "property": "C172",
   "status": "partial",
   "theorems": [
    "Verif.PortCond.C172_pumps_partial",
    "Verif.PortCond.C172_step_partial",
    "Verif.PortCond.C172_entropy_partial"
   ],
   "note": "proved for parts connected directly, constant heat capacities and steps no longer than the heat capacity of a cell divided by everything connected to it; pumps only for explicit steps; with connectors and valves the claim fails with energy conservation (C109), with longer steps as in C171"
  },
  {
   "property": "C173",
   "status": "partial",
   "theorems": [
    "Verif.Stability.C173_part_partial",
    "Verif.Stability.C173_mass_partial",
    "Verif.Stability.C173_hex_partial",
    "Verif.Stability.C173_fails_lighter_cell"
   ],
   "note": "exact condition proved, but with the largest density and capacity of the part in place of those of the cell: with different densities the claim fails, and it holds up to the ratio of the densities"
  },
  {
   "property": "C174",
   "status": "partial",
   "theorems": [
    "Verif.HexNum.C174_steady_channels_partial",
    "Verif.HexNum.C174_steady_partial",
    "Verif.HexNum.C174_entropy_partial",
    "Verif.HexNum.C174_step_partial",
    "Verif.HexNum.C174_solver_step_partial",
    "Verif.HexNum.C174_fails_one_pass"
   ],
   "note": "proved for one channel of each side, and for all channels if both sides have equally many (two or more passes); with one pass the exchanger loses or creates heat (C83), so the claim fails"
  },
  {
   "property": "C175",
   "status": "partial",
   "theorems": [
    "Verif.Plan.C175_stats_partial",
    "Verif.Plan.C175_plans_partial",
    "Verif.Plan.C175_adjusted_partial",
    "Verif.Plan.C175_soc_partial",
    "Verif.Plan.C175_status_partial",
    "Verif.Plan.C175_fails_emergency",
    "Verif.Plan.C175_fails_single",
    "Verif.Plan.C175_fails_invented"
   ],
   "note": "proved for planning steps in which the optimiser was called, with plans of at least two steps, and control steps not longer than opt_every; false for planning steps during emergency control (their status 100 or -100 is dropped), for plans of one step (dropped) and for the state of charge if there was no plan (an invented zero); from pandas 1.5 on the arguments of dropna are refused"
  },
  {
   "property": "C176",
   "status": "partial",
   "theorems": [
    "Verif.Meters.C176_difference",
    "Verif.Meters.C176_constant",
    "Verif.Meters.C176_water_partial",
    "Verif.Meters.C176_fails_hot"
   ],
   "note": "exact for a constant heat capacity; for water between 0 and 100 degrees the meter shows between 4.7 percent less and 1.3 percent more than the water carries; equality is false: from 90 to 100 degrees at least 2 percent are missing"
  },
  {
   "property": "C177",
   "status": "partial",
   "theorems": [
    "Verif.CtrlNet.C177_one_each",
    "Verif.CtrlNet.C177_masters",
    "Verif.CtrlNet.C177_master_part",
    "Verif.CtrlNet.C177_reference_partial",
    "Verif.CtrlNet.C177_fails_reference",
    "Verif.CtrlNet.C177_fails_ignored",
    "Verif.CtrlNet.C177_fails_linked"
   ],
   "note": "unique actuators and masters of the same step hold (without slope limit, see C41); a reference works only if the difference is also passed as the undocumented difference_to_ref, which alone counts; with the documented arguments the constructor always fails; linked controllers are refused or, if added before the controller of the reference, never move their actuator"
  },
  {
   "property": "C178",
   "status": "partial",
   "theorems": [
    "Verif.ModuleCtrl.C178_added_partial",
    "Verif.ModuleCtrl.C178_fails_el",
    "Verif.ModuleCtrl.C178_fails_older"
   ],
   "note": "holds for all modules but for the CHP plant in the mode el, which stays without a controller; the older add_chp_with_fghex can never be built with one or two return ports because it adds controllers for valves that exist with three only; second sensors of two-sensor controllers are left out"
  },
  {
   "property": "C179",
   "status": "partial",
   "theorems": [
    "Verif.StoreFiles.C179_kept_partial",
    "Verif.StoreFiles.C179_complete_partial",
    "Verif.StoreFiles.C179_folder_partial",
    "Verif.StoreFiles.C179_report_partial",
    "Verif.StoreFiles.C179_fails_again",
    "Verif.StoreFiles.C179_fails_same_second",
    "Verif.StoreFiles.C179_fails_folder",
    "Verif.StoreFiles.C179_fails_report"
   ],
   "note": "holds if no two simulations are set up to save at the same place, the folder ends with a separator and .h5 is not part of its name; false otherwise: simulations of one name set up within the same second are both accepted and their rows mixed, a second run of an environment cannot save, folders without separator at the end are not used, folders with .h5 in their name lose the report"
  },
  {
   "property": "C180",
   "status": "partial",
   "theorems": [
    "Verif.BcSeries.C180_returned_partial",
    "Verif.BcSeries.C180_accepted",
    "Verif.BcSeries.C180_times_partial",
    "Verif.BcSeries.C180_fails_fitting",
    "Verif.BcSeries.C180_fails_single",
    "Verif.BcSeries.C180_fails_pandas",
    "Verif.BcSeries.C180_fails_drift"
   ],
   "note": "whenever a series is returned it is the (repeated) array over the whole duration; false: arrays that fit exactly and single values raise errors, nothing is returned with pandas from version 1.0 on, periods are cut to whole nanoseconds. Resampling itself belongs to pandas and is a parameter"
  },
  {
   "property": "C181",
   "status": "partial",
   "theorems": [
    "Verif.MeterLife.C181_dated_partial",
    "Verif.MeterLife.C181_refused_before",
    "Verif.MeterLife.C181_refused_new",
    "Verif.MeterLife.C181_refused_length",
    "Verif.MeterLife.C181_fails_memory",
    "Verif.MeterLife.C181_fails_start",
    "Verif.MeterLife.C181_fails_stale"
   ],
   "note": "proved for simulations that save their results, with the start that is given; false: after simulations without disk saving meters can never be added (KeyError), the start is not compared with that of the results, Meters objects of an earlier simulation accept the results of a later one and date them with the earlier times"
  },
  {
   "property": "C182",
   "status": "partial",
   "theorems": [
    "Verif.PlateCount.C182_channels",
    "Verif.PlateCount.C182_one_pass_partial",
    "Verif.PlateCount.C182_fails_passes"
   ],
   "note": "proved for one pass; false for several passes: always the plates between two passes are left out, plates-1-passes instead of plates-2 (5 plates in 2 passes: a third is missing)"
  },
  {
   "property": "C183",
   "status": "partial",
   "theorems": [
    "Verif.ValPlot.C183_scatter",
    "Verif.ValPlot.C183_given",
    "Verif.ValPlot.C183_inside",
    "Verif.ValPlot.C183_points",
    "Verif.ValPlot.C183_density_partial",
    "Verif.ValPlot.C183_fails_bias",
    "Verif.ValPlot.C183_fails_variation",
    "Verif.ValPlot.C183_fails_determination"
   ],
   "note": "proved for the scatter plot and for the mean squared error of the density plot; false for its other measures: measured and predicted values are swapped, so the bias has the wrong sign and CV(RMSE) and R2 are right only if means or variations agree"
  },
  {
   "property": "C184",
   "status": "partial",
   "theorems": [
    "Verif.PredPlot.C184_scatter_partial",
    "Verif.PredPlot.C184_density_partial",
    "Verif.PredPlot.C184_best",
    "Verif.PredPlot.C184_fails_other",
    "Verif.PredPlot.C184_fails_hexbin",
    "Verif.PredPlot.C184_fails_determination",
    "Verif.PredPlot.C184_fails_line"
   ],
   "note": "proved for MSE, CV(RMSE) and NMBE in scatter and density plots and R2 in density plots; false: other measures are left out silently, hexagon plots fail with a KeyError for every measure (MSE is ignored), R2 differs between the kinds of plots, and the left end of the regression line is wrong unless its slope is one or the smallest value zero"
  },
  {
   "property": "C185",
   "status": "partial",
   "theorems": [
    "Verif.Heatmap.C185_alone_partial",
    "Verif.Heatmap.C185_log",
    "Verif.Heatmap.C185_values",
    "Verif.Heatmap.C185_tight",
    "Verif.Heatmap.C185_empty",
    "Verif.Heatmap.C185_fails_scale",
    "Verif.Heatmap.C185_fails_ends"
   ],
   "note": "proved: the part of the table that is drawn, and that a plot is independent of earlier ones which did not write into its dictionaries; false: one logarithmic or extended plot changes the dictionaries in the header of the function, so all later plots get its logarithmic scale, with the limits of its data, and its ends of the colour bar"
  },
  {
   "property": "C186",
   "status": "partial",
   "theorems": [
    "Verif.PlateHex.C186_turn_supply",
    "Verif.PlateHex.C186_turn_demand",
    "Verif.PlateHex.C186_sides_partial",
    "Verif.PlateHex.C186_sides_close_partial",
    "Verif.PlateHex.C186_fails_limit"
   ],
   "note": "direction: for all flows; sides: exactly as long as the exponent is below 100 in absolute value, and up to exp(-100) of the temperature difference beyond; false exactly at 100, where the code uses the formula for equal capacity flows"
  },
  {
   "property": "C187",
   "status": "partial",
   "theorems": [
    "Verif.PlateHex.C187_mean_partial",
    "Verif.PlateHex.C187_function_partial",
    "Verif.PlateHex.C187_parallel",
    "Verif.PlateHex.C187_cut_partial",
    "Verif.PlateHex.C33_fails_at_limit"
   ],
   "note": "proved as long as the exponent is below 100, with given heat transfer values and heat capacities; at 100 and beyond the code cuts the formula off (C33_fails_at_limit)"
  },
  {
   "property": "C188",
   "status": "partial",
   "theorems": [
    "Verif.PlateCount.C188_plates_partial",
    "Verif.PlateCount.C188_fails_plates"
   ],
   "note": "proved for plates of another area, thickness or conductivity, for plates ten times as long as the hydraulic diameter and not exactly at the limit of the formula; false for the number of plates: for every kind of plates there are flows for which two more plates transfer less heat, since the coefficient jumps down where the formula for turbulent flow ends"
  },
  {
   "property": "C189",
   "status": "partial",
   "theorems": [
    "Verif.Conductance.C189_material",
    "Verif.Conductance.C189_thickness_partial",
    "Verif.Conductance.C189_fails_thin",
    "Verif.Conductance.C189_plane"
   ],
   "note": "proved with a given coefficient on the outside, for pipes from the critical radius on; below it more insulation loses more heat, as in reality"
  },
  {
   "property": "C190",
   "status": "partial",
   "theorems": [
    "Verif.MixControl.C190_hotter",
    "Verif.MixControl.C190_reach_partial",
    "Verif.MixControl.C190_water_partial",
    "Verif.MixControl.C190_fails_open",
    "Verif.MixControl.C190_fails_cold"
   ],
   "note": "the outlet gets hotter with further opening; every temperature is reached if the heat capacity is constant, with water in a range shifted by up to 1.01 percent; a closed inlet still changes the temperature of the outlet, since its temperature enters the heat capacity"
  },
  {
   "property": "C191",
   "status": "partial",
   "theorems": [
    "Verif.MixOrder.C191_commute",
    "Verif.MixOrder.C191_order_partial",
    "Verif.MixOrder.C191_water_partial",
    "Verif.MixOrder.C191_fails_water"
   ],
   "note": "two streams: proved; three streams: proved for constant heat capacity, with water an error of up to 2.1 percent of the enthalpy remains, and the order does change the temperature"
  },
  {
   "property": "C192",
   "status": "partial",
   "theorems": [
    "Verif.Overheat.C192_step_partial",
    "Verif.Overheat.C192_simulation_partial",
    "Verif.Overheat.C192_fails_limit"
   ],
   "note": "proved up to what one step can add, for steps no longer than the heat capacity of each cell divided by everything connected to it; the shutdown temperature itself can be exceeded"
  },
  {
   "property": "C193",
   "status": "partial",
   "theorems": [
    "Verif.Cells.C193_balance",
    "Verif.Cells.C193_rise_partial",
    "Verif.Cells.C193_water_partial",
    "Verif.Cells.C193_fails_water"
   ],
   "note": "balance proved for all materials; rise exact for constant specific heat, with water between the power over 4379 and over 4167 J/(kg K) times the flow; with the specific heat itself it is false by more than 2 percent between 90 and 100 degrees, because the code balances cp(T) T"
  },
  {
   "property": "C194",
   "status": "proved",
   "theorems": [
    "Verif.Tariff.C194_gas",
    "Verif.Tariff.C194_exchange",
    "Verif.Tariff.C194_electricity",
    "Verif.Tariff.C194_penalty",
    "Verif.Tariff.C194_refunds",
    "Verif.Tariff.C194_upkeep"
   ],
   "note": "upkeep: flat rate; demands not negative"
  },
  {
   "property": "C195",
   "status": "proved",
   "theorems": [
    "Verif.Tariff.C195_hour_by_hour"
   ],
   "note": "possible modulations: 0 or between the limits"
  },
  {
   "property": "C196",
   "status": "partial",
   "theorems": [
    "Verif.Tariff.C196_shape_partial",
    "Verif.Tariff.C196_local_partial",
    "Verif.Tariff.C196_fails_prices",
    "Verif.Tariff.C196_fails_standstill"
   ],
   "note": "flat upkeep, plants of at least 100 W, price of bought electricity plus penalty at least 7 ct above the exchange price; for other prices, and at standstill, there are local minima which are not global"
  },
  {
   "property": "C197",
   "status": "partial",
   "theorems": [
    "Verif.Tariff.C197_plan_partial",
    "Verif.Tariff.C196_fails_standstill",
    "Verif.Tariff.C196_fails_prices"
   ],
   "note": "for plans that run in the same steps, with the conditions of C196 on prices; standstill is always a local minimum"
  },
  {
   "property": "C198",
   "status": "partial",
   "theorems": [
    "Verif.Preopt.C198_result",
    "Verif.Preopt.C198_kept",
    "Verif.Preopt.C198_range",
    "Verif.Preopt.C198_modulation_partial",
    "Verif.Preopt.C198_fails_gives_up",
    "Verif.Preopt.C198_fails_modulation"
   ],
   "note": "the result keeps the constraints or is the plan that was given; modulations are possible ones if the plant runs between half and full power; steps to be lowered are determined only once, so that a plan may not be found"
  },
  {
   "property": "C199",
   "status": "proved",
   "theorems": [
    "Verif.Cells.C199_pipe",
    "Verif.Cells.C199_storage",
    "Verif.Cells.C199_heater",
    "Verif.Cells.C199_chp",
    "Verif.HexNum.C199_hex",
    "Verif.HexNum.C199_hex_check",
    "Verif.Stability.C199_check",
    "Verif.Stability.C199_check_hex"
   ],
   "note": ""
  },
  {
   "property": "C200",
   "status": "partial",
   "theorems": [
    "Verif.Cells.C200_pipe_partial",
    "Verif.Cells.C200_storage_partial",
    "Verif.Cells.C200_heater_partial",
    "Verif.Cells.C200_chp_partial",
    "Verif.Cells.C200_fails_material",
    "Verif.HexNum.C200_hex_partial"
   ],
   "note": "constant material properties, given factors of buoyancy, heater not switched off; false for heat capacities that depend on temperature"
  },
  {
   "property": "C201",
   "status": "partial",
   "theorems": [
    "Verif.ModelPred.C201_recorded",
    "Verif.ModelPred.C201_one_row",
    "Verif.ModelPred.C201_stored_partial",
    "Verif.ModelPred.C201_fails_same_time"
   ],
   "note": "the recorded rows are right for every history; the stored table loses the second row when a call both adapts and restores"
  },
  {
   "property": "C202",
   "status": "partial",
   "theorems": [
    "Verif.Cells.C202_rate_storage",
    "Verif.Cells.C202_rate_pipe",
    "Verif.Cells.C202_hotter_partial",
    "Verif.Cells.C202_pipe_partial"
   ],
   "note": "runs with constant material properties, given factors of buoyancy and steps short enough"
  },
  {
   "property": "C203",
   "status": "proved",
   "theorems": [
    "Verif.Tariff.C203_admits",
    "Verif.Tariff.C203_larger",
    "Verif.Tariff.C203_emergency",
    "Verif.Tariff.C203_freedom",
    "Verif.Tariff.C203_no_storage"
   ],
   "note": "the optimum of the problem handed to the optimiser; that the optimiser finds it is not claimed"
  },
  {
   "property": "C204",
   "status": "partial",
   "theorems": [
    "Verif.Tariff.C204_cost",
    "Verif.Tariff.C204_constraints_partial",
    "Verif.Tariff.C204_fails_first_step"
   ],
   "note": "proved for the cost; the constraints differ by the part of the demand of the first step that is not counted (C77)"
  },
  {
   "property": "C205",
   "status": "partial",
   "theorems": [
    "Verif.Cells.C205_rate",
    "Verif.Cells.C205_hotter_partial",
    "Verif.Cells.C205_chp_partial",
    "Verif.Cells.C205_fails_shutdown"
   ],
   "note": "runs with constant material properties, steps short enough, and no shutdown of the stronger heater; false when it is switched off: the weaker one can overshoot"
  },
  {
   "property": "C206",
   "status": "partial",
   "theorems": [
    "Verif.PlateHex.C206_superposition",
    "Verif.PlateHex.C206_shift",
    "Verif.PlateHex.C206_proportional",
    "Verif.PlateHex.C206_monotone_partial",
    "Verif.PlateHex.C206_fails_limit"
   ],
   "note": "superposition, shift and proportionality proved for all flows; monotony unless (R-1)*NTU is exactly 100, where it is false"
  },
  {
   "property": "C207",
   "status": "partial",
   "theorems": [
    "Verif.Controls.C207_pi_partial",
    "Verif.Controls.C207_bang_partial",
    "Verif.Controls.C207_two_partial",
    "Verif.Controls.C207_fails_derivative",
    "Verif.Controls.C207_fails_discrete",
    "Verif.Controls.C207_fails_inverted"
   ],
   "note": "proved for P, I and PI controllers in continuous time with any anti-windup without slope limit, and for switching controllers with or without slope limit; the code refutes it for derivative parts, in discrete time and for inverted switching controllers"
  },
  {
   "property": "C208",
   "status": "partial",
   "theorems": [
    "Verif.Controls.C208_pi_partial",
    "Verif.Controls.C208_bang_partial",
    "Verif.Controls.C208_two_partial",
    "Verif.Controls.C208_fails_derivative",
    "Verif.Controls.C208_fails_discrete"
   ],
   "note": "proved for P, I and PI controllers in continuous time and for switching controllers that are not inverted, with any slope limit; the code refutes it for derivative parts (by design) and in discrete time, where a saturated control value is followed by an action of the wrong sign"
  },
  {
   "property": "C209",
   "status": "partial",
   "theorems": [
    "Verif.Controls.C209_forgets_partial",
    "Verif.Controls.C209_fails_unlimited"
   ],
   "note": "proved for P, I and PI controllers in continuous time without slope limit; without anti-windup the memory has no limit"
  },
  {
   "property": "C210",
   "status": "partial",
   "theorems": [
    "Verif.Topology.C210_superposition_partial",
    "Verif.Topology.C210_proportional_partial",
    "Verif.Topology.C210_standstill_partial"
   ],
   "note": "proved for all parts except storages with two or more ports that were not reached (C98)"
  },
  {
   "property": "C211",
   "status": "partial",
   "theorems": [
    "Verif.Chp.C211_division_partial",
    "Verif.Chp.C211_arrival_partial",
    "Verif.Chp.C211_fails_start"
   ],
   "note": "proved while the plant runs, with steps that are accepted at once; switching on happens at the end of a step and so depends on its length"
  },
  {
   "property": "C212",
   "status": "partial",
   "theorems": [
    "Verif.Meters.C212_branches",
    "Verif.Meters.C212_positive_partial",
    "Verif.Meters.C212_sections_partial",
    "Verif.Meters.C212_fails_opposite",
    "Verif.Meters.C212_fails_sections"
   ],
   "note": "proved for branches in full; counters of one direction only if the branches flow in the same direction; sections only if the heat capacity is constant or linear, because the meter takes the mean at its two temperatures"
  },
  {
   "property": "C213",
   "status": "proved",
   "theorems": [
    "Verif.Tariff.C213_own_use_first",
    "Verif.Tariff.C213_more_power",
    "Verif.Tariff.C213_degressive",
    "Verif.Tariff.C213_two_plants",
    "Verif.Tariff.C213_own_use_half"
   ],
   "note": ""
  },
  {
   "property": "C214",
   "status": "proved",
   "theorems": [
    "Verif.Controls.C214_units",
    "Verif.Controls.C214_tuning"
   ],
   "note": "the limit of the integral term is converted in the continuous version only: in the discrete version the code applies it to the control value; tuning applies to the continuous version"
  },
  {
   "property": "C215",
   "status": "proved",
   "theorems": [
    "Verif.Mixing.C215_ports",
    "Verif.Mixing.C215_scale",
    "Verif.Mixing.C215_valve"
   ],
   "note": "for one evaluation of the part with the flows and temperatures at its ports"
  }
 ]
}