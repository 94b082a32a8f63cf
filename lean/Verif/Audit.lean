import Verif.Props.AddEntry
import Verif.Props.Arrive
import Verif.Props.Avr
import Verif.Props.AvrTimer
import Verif.Props.Brake
import Verif.Props.Bytes
import Verif.Props.Clock
import Verif.Props.Config
import Verif.Props.Control
import Verif.Props.Cycles
import Verif.Props.Drive
import Verif.Props.Due
import Verif.Props.DueBoard
import Verif.Props.DueTime
import Verif.Props.EndToEnd
import Verif.Props.EndToEndFast
import Verif.Props.Engine
import Verif.Props.EspBoard
import Verif.Props.EspPin
import Verif.Props.External
import Verif.Props.ExternalEsp
import Verif.Props.Fast
import Verif.Props.Fill
import Verif.Props.Halt
import Verif.Props.Limits
import Verif.Props.Mcpwm
import Verif.Props.Motion
import Verif.Props.Params
import Verif.Props.Periods
import Verif.Props.Planner
import Verif.Props.Pmf
import Verif.Props.Preempt
import Verif.Props.PulseCounter
import Verif.Props.Queue
import Verif.Props.QueueReads
import Verif.Props.RampCalc
import Verif.Props.RampGen
import Verif.Props.RealTime
import Verif.Props.Redirect
import Verif.Props.Rmt
import Verif.Props.RmtBoard
import Verif.Props.RmtReg
import Verif.Props.RmtRegS
import Verif.Props.Single
import Verif.Props.Speed
import Verif.Props.StopPulses
import Verif.Props.Supply
import Verif.Props.Timed

/-! Axioms every claimed theorem depends on (generated by tools/manifest.py). -/

#print axioms FAS.C01_queue_is_bounded_fifo
#print axioms FAS.C02_add_decision
#print axioms FAS.C02_start_decision
#print axioms FAS.C03_position_after_commands
#print axioms FAS.C04_current_position_exact
#print axioms FAS.C05_ticks_in_queue
#print axioms FAS.C06_has_ticks_in_queue
#print axioms FAS.C07_realtime_speed
#print axioms FAS.C08_pulse_count_partial
#print axioms FAS.C08_late_start_refuted
#print axioms FAS.C09_direction_and_position_partial
#print axioms FAS.C09_late_command_refuted
#print axioms FAS.C10_pulse_train_partial
#print axioms FAS.C10_late_command_refuted
#print axioms FAS.C10_late_pause_refuted
#print axioms FAS.C11_start_not_lost
#print axioms FAS.C11_all_executed_partial
#print axioms FAS.C12_force_stop_partial
#print axioms FAS.C12_later_commands_partial
#print axioms FAS.C12_ignored_command_refuted
#print axioms FAS.C12_extra_pulse_refuted
#print axioms FAS.C13_direction_delay_partial
#print axioms FAS.C13_short_pause_refuted
#print axioms FAS.C13_force_stop_refuted
#print axioms FAS.C13_C14_late_enable_refuted
#print axioms FAS.C14_enable_delay_partial
#print axioms FAS.C13_C14_late_enable_refuted
#print axioms FAS.C15_rejected_without_effect
#print axioms FAS.C16_confirmed_partial
#print axioms FAS.C16_waits_partial
#print axioms FAS.C16_turns_at_pauses
#print axioms FAS.C16_two_pauses_partial
#print axioms FAS.C16_low_counts_up_refuted
#print axioms FAS.C16_force_stop_refuted
#print axioms FAS.C16_task_polls
#print axioms FAS.C16_rmt_confirmed_partial
#print axioms FAS.C16_rmt_waits_partial
#print axioms FAS.C16_rmt_early_refuted
#print axioms FAS.C16_rmt_rejected_refuted
#print axioms FAS.C16_mcpwm_confirmed_partial
#print axioms FAS.C16_mcpwm_waits_partial
#print axioms FAS.C17_direction_delay_clamped
#print axioms FAS.C18_delay_to_enable_partial
#print axioms FAS.C18_long_delay_refuted
#print axioms FAS.C19_delay_to_disable
#print axioms FAS.C19_kept
#print axioms FAS.C20_enable_pin_polarity
#print axioms FAS.C20_enable_levels
#print axioms FAS.C20_external_pin_both_polarities
#print axioms FAS.C20_external_result
#print axioms FAS.C21_auto_disable_partial
#print axioms FAS.C21_levels
#print axioms FAS.C21_chained_pins_refuted
#print axioms FAS.C22_auto_disable
#print axioms FAS.C22_cycle
#print axioms FAS.C22_armed
#print axioms FAS.C23_connect
#print axioms FAS.C23_failure
#print axioms FAS.C24_busy_pin_rejects
#print axioms FAS.C24_exclusive_partial
#print axioms FAS.C24_null_start_refuted
#print axioms FAS.C25_speed_setters
#print axioms FAS.C27_set_milliHz_partial
#print axioms FAS.C27_sam_refuted
#print axioms FAS.C26_hz_nearest
#print axioms FAS.C27_set_milliHz_partial
#print axioms FAS.C27_get_milliHz_partial
#print axioms FAS.C27_get_defined
#print axioms FAS.C27_sam_refuted
#print axioms FAS.C27_long_period_refuted
#print axioms FAS.C28_us_exact
#print axioms FAS.C28_us_read_back
#print axioms FAS.C29_ramp_speed_partial
#print axioms FAS.C29_queue_speed_partial
#print axioms FAS.C29_not_started_refuted
#print axioms FAS.C29_sam_refuted
#print axioms FAS.C29_single_step_refuted
#print axioms FAS.C30_round_trip
#print axioms FAS.C31_monotone
#print axioms FAS.C32_period_no_overflow
#print axioms FAS.C32_ramp_steps_no_overflow_partial
#print axioms FAS.C32_ramp_steps_refuted
#print axioms FAS.C33_sqrt_law
#print axioms FAS.C33_cubic_law
#print axioms FAS.C34_well_formed
#print axioms FAS.C35_accepted_partial
#print axioms FAS.C35_never_aborted_partial
#print axioms FAS.C35_last_steps_refuted
#print axioms FAS.C35_high_speed_refuted
#print axioms FAS.C35_jump_start_refuted
#print axioms FAS.C35_slow_speed_change_refuted
#print axioms FAS.C35_auto_enable_refuted
#print axioms FAS.C36_period_conserved_partial
#print axioms FAS.C36_slow_speed_change_refuted
#print axioms FAS.C37_service
#print axioms FAS.C37_finished_at_target
#print axioms FAS.C38_start_direction_partial
#print axioms FAS.C38_no_overshoot
#print axioms FAS.C38_jump_start_refuted
#print axioms FAS.C39_speed_limit_partial
#print axioms FAS.C36_slow_speed_change_refuted
#print axioms FAS.C39_standstill_refuted
#print axioms FAS.C40_monotone_partial
#print axioms FAS.C36_slow_speed_change_refuted
#print axioms FAS.C41_stop_target
#print axioms FAS.C42_move_errors
#print axioms FAS.C43_targets_partial
#print axioms FAS.C43_pending_moveTo_refuted
#print axioms FAS.C44_force_stop_partial
#print axioms FAS.C44_pending_move_refuted
#print axioms FAS.C45_set_position_partial
#print axioms FAS.C45_pending_commands_refuted
#print axioms FAS.C46_steps_and_time_partial
#print axioms FAS.C46_min_steps_refuted
#print axioms FAS.C46_actual_duration_refuted
#print axioms FAS.C47_rejected_no_effect
#print axioms FAS.C47_fits_partial
#print axioms FAS.C47_pause_fit_refuted
#print axioms FAS.C47_slow_fit_refuted
#print axioms FAS.C47_slowest_fit_refuted
#print axioms FAS.C47_half_refuted
#print axioms FAS.C47_period_refuted
#print axioms FAS.C48_current_acceleration
#print axioms FAS.C48_set_acceleration
#print axioms FAS.C49_terminates
#print axioms FAS.C49_planning
#print axioms FAS.C49_planning_progress
#print axioms FAS.C49_inactive
#print axioms FAS.C50_output_partial
#print axioms FAS.C50_memory
#print axioms FAS.C50_short_period_refuted
#print axioms FAS.C50_fast_limit_sharp
#print axioms FAS.C50_longest_period_refuted
#print axioms FAS.C50_duration_refuted
#print axioms FAS.C50_inserted_pause_refuted
#print axioms FAS.C51_direction
#print axioms FAS.C52_direction_partial
#print axioms FAS.C52_pause_turn_refuted
#print axioms FAS.C52_after_pause_refuted
#print axioms FAS.C52_late_turn_refuted
#print axioms FAS.C53_not_running
#print axioms FAS.C54_run_keeps_running
#print axioms FAS.C55_forward_planning
#print axioms FAS.C56_steps_to_stop_partial
#print axioms FAS.C56_uninitialised_refuted
#print axioms FAS.C57_move_finishes_partial
#print axioms FAS.C57_arrives_partial
#print axioms FAS.C57_moveTo_arrives_partial
#print axioms FAS.C57_plain_moveTo_arrives_partial
#print axioms FAS.C57_task_arrives_partial
#print axioms FAS.C58_move_from_standstill_partial
#print axioms FAS.C58_moveTo_starts
#print axioms FAS.C58_move_after_forwardStep_refuted
#print axioms FAS.C59_run_starts_partial
#print axioms FAS.C59_run_after_forceStop_refuted
#print axioms FAS.C59_jump_start_refuted
#print axioms FAS.C60_period_monotone_partial
#print axioms FAS.C60_linear_partial
#print axioms FAS.C60_linear_acceleration_refuted
#print axioms FAS.C61_ramp_steps_law
#print axioms FAS.C61_planned_ramp_steps
#print axioms FAS.C62_result_tells_partial
#print axioms FAS.C62_ignored_refuted
#print axioms FAS.C62_no_effect_refuted
#print axioms FAS.C63_all_sent_partial
#print axioms FAS.C63_late_start_refuted
#print axioms FAS.C63_ignored_start_refuted
#print axioms FAS.C64_pulses_partial
#print axioms FAS.C64_all_executed_partial
#print axioms FAS.C64_force_stop_refuted
#print axioms FAS.C64_empty_start_refuted
#print axioms FAS.C65_no_op
#print axioms FAS.C65_at_most_one_step
#print axioms FAS.C65_one_step_partial
#print axioms FAS.C65_three_steppers_refuted
#print axioms FAS.C66_by_acceleration_partial
#print axioms FAS.C66_zero_partial
#print axioms FAS.C66_zero_speeds_up_refuted
#print axioms FAS.C67_limit_of_connected
#print axioms FAS.C67_units_partial
#print axioms FAS.C67_milliHz_refuted
#print axioms FAS.C67_limit_is_accepted_partial
#print axioms FAS.C67_us_not_accepted_refuted
#print axioms FAS.C68_period_at_end_partial
#print axioms FAS.C69_no_effect_before_apply
#print axioms FAS.C69_used_after_apply
#print axioms FAS.C69_apply_without_change
#print axioms FAS.C69_pending_refuted
#print axioms FAS.C70_keeps_running_partial
#print axioms FAS.C70_reverses_refuted
#print axioms FAS.C70_apply_refuted
#print axioms FAS.C71_position_counts_commands
#print axioms FAS.C71_moveTimed_position_partial
#print axioms FAS.C72_periods_partial
#print axioms FAS.C72_all_executed_partial
#print axioms FAS.C72_late_refuted
#print axioms FAS.C72_empty_start_refuted
#print axioms FAS.C72_other_channel_refuted
#print axioms FAS.C72_limit_readback_refuted
#print axioms FAS.C73_direction_partial
#print axioms FAS.C74_no_pulse_lost_partial
#print axioms FAS.C74_last_pulse_refuted
#print axioms FAS.C75_force_stop_partial
#print axioms FAS.C75_later_commands_partial
#print axioms FAS.C75_pending_interrupt_refuted
#print axioms FAS.C76_position_partial
#print axioms FAS.C76_outdated_end_refuted
#print axioms FAS.C76_stale_counter_refuted
#print axioms FAS.C77_position_partial
#print axioms FAS.C77_standstill_partial
#print axioms FAS.C77_lag_refuted
#print axioms FAS.C77_ahead_refuted
#print axioms FAS.C77_outdated_end_refuted
#print axioms FAS.C78_counts
#print axioms FAS.C78_other_cases
#print axioms FAS.C78_mcpwm_partial
#print axioms FAS.C78_rmt_partial
#print axioms FAS.C78_attached_before_direction_refuted
#print axioms FAS.C79_avr_partial
#print axioms FAS.C79_mcpwm_partial
#print axioms FAS.C79_rmt_partial
#print axioms FAS.C79_due_partial
#print axioms FAS.C79_avr_fast_partial
#print axioms FAS.C79_mcpwm_fast_partial
#print axioms FAS.C79_rmt_fast_partial
#print axioms FAS.C79_due_fast_partial
#print axioms FAS.C80_moveTo_partial
#print axioms FAS.C80_move_partial
#print axioms FAS.C80_run_partial
#print axioms FAS.C80_stop_refuted
#print axioms FAS.C80_stale_byte_refuted
#print axioms FAS.C80_second_core_refuted
#print axioms FAS.C81_punctual
#print axioms FAS.C81_ticks_in_queue
#print axioms FAS.C81_deadline_sharp
#print axioms FAS.C82_supplied_partial
#print axioms FAS.C82_in_time_partial
#print axioms FAS.C82_speed_refuted
#print axioms FAS.AvrTimer.C83_independent_partial
#print axioms FAS.AvrTimer.C83_pulses_partial
#print axioms FAS.AvrTimer.C83_undivided_partial
#print axioms FAS.AvrTimer.C83_extra_step_refuted
#print axioms FAS.AvrTimer.C83_lost_step_refuted
#print axioms FAS.AvrTimer.C83_stuck_refuted
#print axioms FAS.AvrTimer.C83_slow_start_refuted
#print axioms FAS.AvrTimer.C84_task_alive
#print axioms FAS.C85_can_stop_partial
#print axioms FAS.C85_fast_refuted
#print axioms FAS.C85_jump_refuted
#print axioms FAS.C86_trapezoid_partial
#print axioms FAS.C87_fast_move_partial
#print axioms FAS.C87_fast_move_clear_partial
#print axioms FAS.C87_fast_long_move_partial
#print axioms FAS.C87_fast_move_refuted
#print axioms FAS.C88_pulse_times_partial
#print axioms FAS.C88_slow_pulse_times_partial
#print axioms FAS.C88_min_distance_partial
#print axioms FAS.C88_fast_pause_refuted
#print axioms FAS.C88_first_pause_refuted
#print axioms FAS.C88_late_pause_refuted
#print axioms FAS.C89_channels
#print axioms FAS.C89_independent_partial
#print axioms FAS.C89_pulses_partial
#print axioms FAS.C89_connect_refuted
#print axioms FAS.C89_detach_refuted
#print axioms FAS.C90_real_time_partial
#print axioms FAS.C90_ends_partial
#print axioms FAS.C90_any_speed_partial
#print axioms FAS.C90_any_speed_ends_partial
#print axioms FAS.C90_few_short_commands_partial
#print axioms FAS.C91_channels
#print axioms FAS.C91_pin
#print axioms FAS.C91_independent_partial
#print axioms FAS.C91_output_partial
#print axioms FAS.C91_enable_bit_refuted
#print axioms FAS.C91_reset_bit_refuted
#print axioms FAS.C91_pulse_counter_refuted
#print axioms FAS.C92_wire_partial
#print axioms FAS.C92_all_sent_partial
#print axioms FAS.C92_force_stop
#print axioms FAS.C92_force_stop_ends_partial
#print axioms FAS.C92_force_stop_refuted
#print axioms FAS.C92_late_refuted
#print axioms FAS.C92_detach_refuted
#print axioms FAS.C92_c3_wire_partial
#print axioms FAS.C92_c3_all_sent_partial
#print axioms FAS.C92_c3_force_stop
#print axioms FAS.C92_c3_force_stop_ends
#print axioms FAS.C92_c3_late_refuted
#print axioms FAS.C92_c3_detach_refuted
#print axioms FAS.C93_channels
#print axioms FAS.C93_pin
#print axioms FAS.C93_independent_partial
#print axioms FAS.C93_independent
#print axioms FAS.C93_output_partial
#print axioms FAS.C93_ena_refuted
#print axioms FAS.C94_stopMove_partial
#print axioms FAS.C94_forceStop
#print axioms FAS.C94_keepRunning_partial
#print axioms FAS.C94_apply
#print axioms FAS.C94_new_position
#print axioms FAS.C94_set_position
#print axioms FAS.C94_setters
#print axioms FAS.C94_nonvacuous
#print axioms FAS.C94_stale_byte_refuted
#print axioms FAS.C94_keep_refuted
#print axioms FAS.C94_second_core_refuted
#print axioms FAS.C95_settings
#print axioms FAS.C95_target_partial
#print axioms FAS.C95_position_idle_partial
#print axioms FAS.C95_position_partial
#print axioms FAS.C95_period_partial
#print axioms FAS.C95_jump_start_partial
#print axioms FAS.C95_position_refuted
#print axioms FAS.C95_target_refuted
#print axioms FAS.C95_period_refuted
#print axioms FAS.C95_jump_start_refuted
#print axioms FAS.C96_ticks_partial
#print axioms FAS.C96_has_ticks_partial
#print axioms FAS.C96_realtime_speed_partial
#print axioms FAS.C96_ticks_refuted
#print axioms FAS.C96_realtime_speed_refuted
#print axioms FAS.C97_drive_partial
#print axioms FAS.C97_run_partial
#print axioms FAS.C98_redirect_partial
#print axioms FAS.C98_moveTo_partial
#print axioms FAS.C98_move_partial
#print axioms FAS.C99_stop_partial
#print axioms FAS.C100_stop_avr_partial
#print axioms FAS.C100_moveTo_avr_partial
#print axioms FAS.C100_stop_mcpwm_partial
#print axioms FAS.C100_moveTo_mcpwm_partial
#print axioms FAS.C100_stop_rmt_partial
#print axioms FAS.C100_moveTo_rmt_partial
#print axioms FAS.C100_stop_due_partial
#print axioms FAS.C100_moveTo_due_partial
