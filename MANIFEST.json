{
 "claims": [
  {
   "property": "C01",
   "status": "proved",
   "theorems": [
    "FAS.C01_queue_is_bounded_fifo"
   ],
   "note": ""
  },
  {
   "property": "C02",
   "status": "proved",
   "theorems": [
    "FAS.C02_add_decision",
    "FAS.C02_start_decision"
   ],
   "note": ""
  },
  {
   "property": "C03",
   "status": "proved",
   "theorems": [
    "FAS.C03_position_after_commands"
   ],
   "note": ""
  },
  {
   "property": "C04",
   "status": "proved",
   "theorems": [
    "FAS.C04_current_position_exact"
   ],
   "note": "ESP32: relative to the hardware pulse counter (MCPWM/PCNT with its races is C76); the RMT driver always reports 0 performed pulses, so there the position advances per command (C77)."
  },
  {
   "property": "C05",
   "status": "proved",
   "theorems": [
    "FAS.C05_ticks_in_queue"
   ],
   "note": ""
  },
  {
   "property": "C06",
   "status": "proved",
   "theorems": [
    "FAS.C06_has_ticks_in_queue"
   ],
   "note": ""
  },
  {
   "property": "C07",
   "status": "proved",
   "theorems": [
    "FAS.C07_realtime_speed"
   ],
   "note": ""
  },
  {
   "property": "C08",
   "status": "partial",
   "theorems": [
    "FAS.C08_pulse_count_partial",
    "FAS.C08_late_start_refuted"
   ],
   "note": "Proved for every schedule except one race, for which the claim is false of the code (refuted theorem): addQueueEntry starting an empty queue."
  },
  {
   "property": "C09",
   "status": "partial",
   "theorems": [
    "FAS.C09_direction_and_position_partial",
    "FAS.C09_late_command_refuted"
   ],
   "note": "Proved while commands arrive before the last pulse of the previous one; false of the code for later arrival (refuted theorem)."
  },
  {
   "property": "C10",
   "status": "partial",
   "theorems": [
    "FAS.C10_pulse_train_partial",
    "FAS.C10_late_command_refuted",
    "FAS.C10_late_pause_refuted"
   ],
   "note": "Proved while commands arrive before the last pulse of the previous one; false of the code for arrival within the last period (refuted theorems)."
  },
  {
   "property": "C11",
   "status": "proved",
   "theorems": [
    "FAS.C11_start_not_lost",
    "FAS.C11_all_executed_partial"
   ],
   "note": ""
  },
  {
   "property": "C12",
   "status": "partial",
   "theorems": [
    "FAS.C12_force_stop_partial",
    "FAS.C12_later_commands_partial",
    "FAS.C12_ignored_command_refuted",
    "FAS.C12_extra_pulse_refuted"
   ],
   "note": "Two violations in the code: an ignored command with start flag creates a pulse; a stale flag doubles the first step after a force stop."
  },
  {
   "property": "C13",
   "status": "partial",
   "theorems": [
    "FAS.C13_direction_delay_partial",
    "FAS.C13_short_pause_refuted",
    "FAS.C13_force_stop_refuted",
    "FAS.C13_C14_late_enable_refuted"
   ],
   "note": "Proved for every history of accepted commands with steps; three violations of the code shown: raw pause with flipped direction, force stop dropping a pending direction change, enable pauses lost in an almost full queue."
  },
  {
   "property": "C14",
   "status": "partial",
   "theorems": [
    "FAS.C14_enable_delay_partial",
    "FAS.C13_C14_late_enable_refuted"
   ],
   "note": "Proved if the queue has room for the enable pauses; otherwise false of the code (refuted theorem)."
  },
  {
   "property": "C15",
   "status": "proved",
   "theorems": [
    "FAS.C15_rejected_without_effect"
   ],
   "note": ""
  },
  {
   "property": "C16",
   "status": "partial",
   "theorems": [
    "FAS.C16_confirmed_partial",
    "FAS.C16_waits_partial",
    "FAS.C16_turns_at_pauses",
    "FAS.C16_two_pauses_partial",
    "FAS.C16_low_counts_up_refuted",
    "FAS.C16_force_stop_refuted",
    "FAS.C16_task_polls",
    "FAS.C16_rmt_confirmed_partial",
    "FAS.C16_rmt_waits_partial",
    "FAS.C16_rmt_early_refuted",
    "FAS.C16_rmt_rejected_refuted",
    "FAS.C16_mcpwm_confirmed_partial",
    "FAS.C16_mcpwm_waits_partial"
   ],
   "note": "AVR, RMT and MCPWM/PCNT; the first clause is false if LOW counts up, with a force stop before the confirmation, with a rejected direction change, and for RMT if the pulses instead of the handed over parts are considered; the clause on two pauses is proved outside the on-delay block of auto enable"
  },
  {
   "property": "C17",
   "status": "proved",
   "theorems": [
    "FAS.C17_direction_delay_clamped"
   ],
   "note": ""
  },
  {
   "property": "C18",
   "status": "partial",
   "theorems": [
    "FAS.C18_delay_to_enable_partial",
    "FAS.C18_long_delay_refuted"
   ],
   "note": "Proved while delay*ticks-per-us fits 32 bits; beyond that the conversion wraps and the claim is false of the code."
  },
  {
   "property": "C19",
   "status": "proved",
   "theorems": [
    "FAS.C19_delay_to_disable",
    "FAS.C19_kept"
   ],
   "note": ""
  },
  {
   "property": "C20",
   "status": "proved",
   "theorems": [
    "FAS.C20_enable_pin_polarity",
    "FAS.C20_enable_levels",
    "FAS.C20_external_pin_both_polarities",
    "FAS.C20_external_result"
   ],
   "note": ""
  },
  {
   "property": "C21",
   "status": "partial",
   "theorems": [
    "FAS.C21_auto_disable_partial",
    "FAS.C21_levels",
    "FAS.C21_chained_pins_refuted"
   ],
   "note": "Proved if the relation 'shares an enable pin' is transitive; otherwise false of the code (stepper with two enable pins, refuted theorem)."
  },
  {
   "property": "C22",
   "status": "proved",
   "theorems": [
    "FAS.C22_auto_disable",
    "FAS.C22_cycle",
    "FAS.C22_armed"
   ],
   "note": ""
  },
  {
   "property": "C23",
   "status": "proved",
   "theorems": [
    "FAS.C23_connect",
    "FAS.C23_failure"
   ],
   "note": ""
  },
  {
   "property": "C24",
   "status": "partial",
   "theorems": [
    "FAS.C24_busy_pin_rejects",
    "FAS.C24_exclusive_partial",
    "FAS.C24_null_start_refuted"
   ],
   "note": "Rejection proved. Exclusivity proved for all histories which do not start a blocked non-empty queue directly; with addQueueEntry(NULL,true) it is false of the code."
  },
  {
   "property": "C25",
   "status": "partial",
   "theorems": [
    "FAS.C25_speed_setters",
    "FAS.C27_set_milliHz_partial",
    "FAS.C27_sam_refuted"
   ],
   "note": "Proved for ticks, microseconds and Hz on every architecture and for milliHz except on SAM Due, where the conversion overflows."
  },
  {
   "property": "C26",
   "status": "proved",
   "theorems": [
    "FAS.C26_hz_nearest"
   ],
   "note": ""
  },
  {
   "property": "C27",
   "status": "partial",
   "theorems": [
    "FAS.C27_set_milliHz_partial",
    "FAS.C27_get_milliHz_partial",
    "FAS.C27_get_defined",
    "FAS.C27_sam_refuted",
    "FAS.C27_long_period_refuted"
   ],
   "note": "Proved except for SAM Due and for very long periods, where the 32 bit product overflows (refuted theorems)."
  },
  {
   "property": "C28",
   "status": "proved",
   "theorems": [
    "FAS.C28_us_exact",
    "FAS.C28_us_read_back"
   ],
   "note": ""
  },
  {
   "property": "C29",
   "status": "partial",
   "theorems": [
    "FAS.C29_ramp_speed_partial",
    "FAS.C29_queue_speed_partial",
    "FAS.C29_not_started_refuted",
    "FAS.C29_sam_refuted",
    "FAS.C29_single_step_refuted"
   ],
   "note": "Proved for both sources of the speed (ramp: from each step command until the next; queue: every history); the value before the first service of a ramp, mHz on SAM Due and a single step without ramp are refuted."
  },
  {
   "property": "C30",
   "status": "proved",
   "theorems": [
    "FAS.C30_round_trip"
   ],
   "note": ""
  },
  {
   "property": "C31",
   "status": "proved",
   "theorems": [
    "FAS.C31_monotone"
   ],
   "note": ""
  },
  {
   "property": "C32",
   "status": "partial",
   "theorems": [
    "FAS.C32_period_no_overflow",
    "FAS.C32_ramp_steps_no_overflow_partial",
    "FAS.C32_ramp_steps_refuted"
   ],
   "note": "16 bit arithmetic proved equal to unbounded arithmetic for all accelerations, steps >= 1, periods >= 1 and linear acceleration below 2^32-2 steps; the 32 bit sum of ramp steps and the linear acceleration offset can wrap (refuted theorem)."
  },
  {
   "property": "C33",
   "status": "proved",
   "theorems": [
    "FAS.C33_sqrt_law",
    "FAS.C33_cubic_law"
   ],
   "note": ""
  },
  {
   "property": "C34",
   "status": "proved",
   "theorems": [
    "FAS.C34_well_formed"
   ],
   "note": ""
  },
  {
   "property": "C35",
   "status": "partial",
   "theorems": [
    "FAS.C35_accepted_partial",
    "FAS.C35_never_aborted_partial",
    "FAS.C35_last_steps_refuted",
    "FAS.C35_high_speed_refuted",
    "FAS.C35_jump_start_refuted",
    "FAS.C35_slow_speed_change_refuted",
    "FAS.C35_auto_enable_refuted"
   ],
   "note": "Proved for all histories with set periods between the minimum command time and 65535 ticks without jump start; false for higher speeds, with jump start and for changes to periods above 65535 ticks (refuted theorems). With a delay after enabling the motor, it must not be disabled while the queue is running (Powered); setAutoEnable(true) during a move breaks this and puts the delay between two steps (C35_auto_enable_refuted)."
  },
  {
   "property": "C36",
   "status": "partial",
   "theorems": [
    "FAS.C36_period_conserved_partial",
    "FAS.C36_slow_speed_change_refuted"
   ],
   "note": "Proved except if a set speed above 65535 ticks is reached while decelerating, where it is false (refuted theorem)."
  },
  {
   "property": "C37",
   "status": "proved",
   "theorems": [
    "FAS.C37_service",
    "FAS.C37_finished_at_target"
   ],
   "note": ""
  },
  {
   "property": "C38",
   "status": "partial",
   "theorems": [
    "FAS.C38_start_direction_partial",
    "FAS.C38_no_overshoot",
    "FAS.C38_jump_start_refuted"
   ],
   "note": "No overshoot proved for all states; start direction proved without jump start, false with jump start (refuted theorem)."
  },
  {
   "property": "C39",
   "status": "partial",
   "theorems": [
    "FAS.C39_speed_limit_partial",
    "FAS.C36_slow_speed_change_refuted",
    "FAS.C39_standstill_refuted"
   ],
   "note": "Proved for the moving motor and from standstill for set periods of at least the minimum command time, except for the cases of the refuted theorems."
  },
  {
   "property": "C40",
   "status": "partial",
   "theorems": [
    "FAS.C40_monotone_partial",
    "FAS.C36_slow_speed_change_refuted"
   ],
   "note": "Accelerating and coasting proved for all states; decelerating except for the clipping to a set speed (false above 65535 ticks, refuted theorem)."
  },
  {
   "property": "C41",
   "status": "proved",
   "theorems": [
    "FAS.C41_stop_target"
   ],
   "note": ""
  },
  {
   "property": "C42",
   "status": "proved",
   "theorems": [
    "FAS.C42_move_errors"
   ],
   "note": ""
  },
  {
   "property": "C43",
   "status": "partial",
   "theorems": [
    "FAS.C43_targets_partial",
    "FAS.C43_pending_moveTo_refuted"
   ],
   "note": "Proved for all histories in which move() is not called while a moveTo() still waits for the task; otherwise the moveTo() is lost (refuted theorem)."
  },
  {
   "property": "C44",
   "status": "partial",
   "theorems": [
    "FAS.C44_force_stop_partial",
    "FAS.C44_pending_move_refuted"
   ],
   "note": "Proved if no move command is still waiting for the task; otherwise the force stop is dropped (refuted theorem)."
  },
  {
   "property": "C45",
   "status": "partial",
   "theorems": [
    "FAS.C45_set_position_partial",
    "FAS.C45_pending_commands_refuted"
   ],
   "note": "Remaining way, end position and (for an empty queue) current position proved; with pending commands the current position is wrong (refuted theorem)."
  },
  {
   "property": "C46",
   "status": "partial",
   "theorems": [
    "FAS.C46_steps_and_time_partial",
    "FAS.C46_min_steps_refuted",
    "FAS.C46_actual_duration_refuted"
   ],
   "note": "Proved for all arguments but steps = -32768 (does not move) and, for *actual_duration, up to 255 steps or slow steps (above it is over-reported)."
  },
  {
   "property": "C47",
   "status": "partial",
   "theorems": [
    "FAS.C47_rejected_no_effect",
    "FAS.C47_fits_partial",
    "FAS.C47_pause_fit_refuted",
    "FAS.C47_slow_fit_refuted",
    "FAS.C47_slowest_fit_refuted",
    "FAS.C47_half_refuted",
    "FAS.C47_period_refuted"
   ],
   "note": "Rejection without effect proved; the fit check is proved exact for evenly splitting, legal arguments without inserted pauses, and refuted for others."
  },
  {
   "property": "C48",
   "status": "proved",
   "theorems": [
    "FAS.C48_current_acceleration",
    "FAS.C48_set_acceleration"
   ],
   "note": ""
  },
  {
   "property": "C49",
   "status": "proved",
   "theorems": [
    "FAS.C49_terminates",
    "FAS.C49_planning",
    "FAS.C49_planning_progress",
    "FAS.C49_inactive"
   ],
   "note": ""
  },
  {
   "property": "C50",
   "status": "partial",
   "theorems": [
    "FAS.C50_output_partial",
    "FAS.C50_memory",
    "FAS.C50_short_period_refuted",
    "FAS.C50_fast_limit_sharp",
    "FAS.C50_longest_period_refuted",
    "FAS.C50_duration_refuted",
    "FAS.C50_inserted_pause_refuted"
   ],
   "note": "Proved for all schedules and commands within the exact limits of the encoder (RmtVer.Encodable; C3/S3 with a tolerance of 4 ticks); outside these limits refuted."
  },
  {
   "property": "C51",
   "status": "proved",
   "theorems": [
    "FAS.C51_direction"
   ],
   "note": ""
  },
  {
   "property": "C52",
   "status": "partial",
   "theorems": [
    "FAS.C52_direction_partial",
    "FAS.C52_pause_turn_refuted",
    "FAS.C52_after_pause_refuted",
    "FAS.C52_late_turn_refuted"
   ],
   "note": "Proved for schedules in which the commands before and after each change of direction have steps and are queued together; changes at or after pauses, and commands added too late, are refuted."
  },
  {
   "property": "C53",
   "status": "proved",
   "theorems": [
    "FAS.C53_not_running"
   ],
   "note": ""
  },
  {
   "property": "C54",
   "status": "proved",
   "theorems": [
    "FAS.C54_run_keeps_running"
   ],
   "note": ""
  },
  {
   "property": "C55",
   "status": "proved",
   "theorems": [
    "FAS.C55_forward_planning"
   ],
   "note": ""
  },
  {
   "property": "C56",
   "status": "partial",
   "theorems": [
    "FAS.C56_steps_to_stop_partial",
    "FAS.C56_uninitialised_refuted"
   ],
   "note": "0 after an immediate stop; after a finished move the value comes from uninitialised memory (refuted theorem)."
  },
  {
   "property": "C57",
   "status": "partial",
   "theorems": [
    "FAS.C57_move_finishes_partial",
    "FAS.C57_arrives_partial",
    "FAS.C57_moveTo_arrives_partial",
    "FAS.C57_plain_moveTo_arrives_partial",
    "FAS.C57_task_arrives_partial"
   ],
   "note": "C57_task_arrives_partial: any acceleration, any set speed of at least L ticks, any linear acceleration, with the cyclic task (fill_queue), any hardware progress and refusals in between: no undefined behaviour, idle only at the target, idle after finitely many unhindered task cycles; also with a delay after enabling the motor, unless it is disabled while the queue is running. C57_plain_moveTo_arrives_partial: moveTo() from any standstill with any set speed (also slow ones with a period above 65535 ticks), any linear acceleration, any acceleration and every distance except exactly 2^31 arrives (set speeds above the minimum command time; for others: 5 * acceleration * max(40000, distance + 1) <= (ticks per second)^2). C57_moveTo_arrives_partial: also with jump start for set speeds of up to 65535 ticks if no period of the ramp is 0. C57_arrives_partial and C57_move_finishes_partial: any moving state; changes and stops in between. For set periods below the minimum command time see C87. Missing: jump start combined with slow set speeds (above 65535 ticks) or with an acceleration so high that the ramp law gives a period of 0 ticks within the distance."
  },
  {
   "property": "C58",
   "status": "partial",
   "theorems": [
    "FAS.C58_move_from_standstill_partial",
    "FAS.C58_moveTo_starts",
    "FAS.C58_move_after_forwardStep_refuted"
   ],
   "note": "Proved if the last position change was done by the ramp generator; false after forwardStep() or raw commands."
  },
  {
   "property": "C59",
   "status": "partial",
   "theorems": [
    "FAS.C59_run_starts_partial",
    "FAS.C59_run_after_forceStop_refuted",
    "FAS.C59_jump_start_refuted"
   ],
   "note": "Proved without pending force stop and without jump start in the other direction; false otherwise (refuted theorems)."
  },
  {
   "property": "C60",
   "status": "partial",
   "theorems": [
    "FAS.C60_period_monotone_partial",
    "FAS.C60_linear_partial",
    "FAS.C60_linear_acceleration_refuted"
   ],
   "note": "Proved without linear acceleration; false with linear acceleration (rounding of one third of a logarithm), where the period rises by at most 2.01 % and 2.02 ticks."
  },
  {
   "property": "C61",
   "status": "proved",
   "theorems": [
    "FAS.C61_ramp_steps_law",
    "FAS.C61_planned_ramp_steps"
   ],
   "note": ""
  },
  {
   "property": "C62",
   "status": "partial",
   "theorems": [
    "FAS.C62_result_tells_partial",
    "FAS.C62_ignored_refuted",
    "FAS.C62_no_effect_refuted"
   ],
   "note": "Proved unless commands are ignored after a force stop; refuted there."
  },
  {
   "property": "C63",
   "status": "partial",
   "theorems": [
    "FAS.C63_all_sent_partial",
    "FAS.C63_late_start_refuted",
    "FAS.C63_ignored_start_refuted"
   ],
   "note": "Proved for encodable commands from any point of a transmission; on IDF 4 starting an empty queue leaves the motor running forever (refuted)."
  },
  {
   "property": "C64",
   "status": "partial",
   "theorems": [
    "FAS.C64_pulses_partial",
    "FAS.C64_all_executed_partial",
    "FAS.C64_force_stop_refuted",
    "FAS.C64_empty_start_refuted"
   ],
   "note": "Proved for all schedules without force stop and without the start of an empty queue; both exceptions refuted (endless pulses, skipped command)."
  },
  {
   "property": "C65",
   "status": "partial",
   "theorems": [
    "FAS.C65_no_op",
    "FAS.C65_at_most_one_step",
    "FAS.C65_one_step_partial",
    "FAS.C65_three_steppers_refuted"
   ],
   "note": "At most one step and the no-op cases without restriction; exactly one step under the stated guards; on AVR with three steppers the calls do nothing (refuted)."
  },
  {
   "property": "C66",
   "status": "partial",
   "theorems": [
    "FAS.C66_by_acceleration_partial",
    "FAS.C66_zero_partial",
    "FAS.C66_zero_speeds_up_refuted"
   ],
   "note": "Proved for all accelerations except 0 and INT32_MIN; with 0 the speed is not kept (refuted), C66_zero_partial says what happens instead."
  },
  {
   "property": "C67",
   "status": "partial",
   "theorems": [
    "FAS.C67_limit_of_connected",
    "FAS.C67_units_partial",
    "FAS.C67_milliHz_refuted",
    "FAS.C67_limit_is_accepted_partial",
    "FAS.C67_us_not_accepted_refuted"
   ],
   "note": "Limit per number of steppers for all connect histories; units exact, except mHz on SAM Due and setting the reported limit in us (both refuted)."
  },
  {
   "property": "C68",
   "status": "partial",
   "theorems": [
    "FAS.C68_period_at_end_partial"
   ],
   "note": "From each step command until the next one; the exceptions are those of C29 and C36."
  },
  {
   "property": "C69",
   "status": "partial",
   "theorems": [
    "FAS.C69_no_effect_before_apply",
    "FAS.C69_used_after_apply",
    "FAS.C69_apply_without_change",
    "FAS.C69_pending_refuted"
   ],
   "note": "Both directions proved for all interleavings once the task has seen the latest move command; values set between a move command and its first service are used without a further call (refuted). Jump start is covered by the first part only."
  },
  {
   "property": "C70",
   "status": "partial",
   "theorems": [
    "FAS.C70_keeps_running_partial",
    "FAS.C70_reverses_refuted",
    "FAS.C70_apply_refuted"
   ],
   "note": "Runs on continuously, but in the direction of the latest run command or forward after move()/moveTo(), see the refutations."
  },
  {
   "property": "C71",
   "status": "proved",
   "theorems": [
    "FAS.C71_position_counts_commands",
    "FAS.C71_moveTimed_position_partial"
   ],
   "note": "C71_moveTimed_position_partial adds the consequence for a successful moveTimed() under the conditions of C46."
  },
  {
   "property": "C72",
   "status": "partial",
   "theorems": [
    "FAS.C72_periods_partial",
    "FAS.C72_all_executed_partial",
    "FAS.C72_late_refuted",
    "FAS.C72_empty_start_refuted",
    "FAS.C72_other_channel_refuted",
    "FAS.C72_limit_readback_refuted"
   ],
   "note": "Exact output, remaining work and termination for all interleavings with interrupts served within the period and a pulse counter with delayed take over of the limit; the refutations show that every assumption is needed."
  },
  {
   "property": "C73",
   "status": "partial",
   "theorems": [
    "FAS.C73_direction_partial"
   ],
   "note": "Under the assumptions of C72; local direction pins (external pins are C16)."
  },
  {
   "property": "C74",
   "status": "partial",
   "theorems": [
    "FAS.C74_no_pulse_lost_partial",
    "FAS.C74_last_pulse_refuted"
   ],
   "note": "All arrival points for two or more missing pulses; for the last pulse refuted: limit 0 with the interrupt disabled."
  },
  {
   "property": "C75",
   "status": "partial",
   "theorems": [
    "FAS.C75_force_stop_partial",
    "FAS.C75_later_commands_partial",
    "FAS.C75_pending_interrupt_refuted"
   ],
   "note": "Any state and any pulse counter. Missing: commands with start flag before the next move (as C12), and a force stop with the interrupt of the pulse counter pending (refuted)."
  },
  {
   "property": "C76",
   "status": "partial",
   "theorems": [
    "FAS.C76_position_partial",
    "FAS.C76_outdated_end_refuted",
    "FAS.C76_stale_counter_refuted"
   ],
   "note": "All interleavings under the assumptions of C72, both critical sections of getCurrentPosition(). Missing: a command queued and finished between the two critical sections, and a command queued without start after a force stop (both refuted)."
  },
  {
   "property": "C77",
   "status": "partial",
   "theorems": [
    "FAS.C77_position_partial",
    "FAS.C77_standstill_partial",
    "FAS.C77_lag_refuted",
    "FAS.C77_ahead_refuted",
    "FAS.C77_outdated_end_refuted"
   ],
   "note": "Exact position at standstill and command by command in motion, all versions and interleavings, for commands which can be encoded (C50). Pulse by pulse it is refuted: the position lags within a command and counts a command when it is handed over, before its pulses are sent."
  },
  {
   "property": "C78",
   "status": "partial",
   "theorems": [
    "FAS.C78_counts",
    "FAS.C78_other_cases",
    "FAS.C78_mcpwm_partial",
    "FAS.C78_rmt_partial",
    "FAS.C78_attached_before_direction_refuted"
   ],
   "note": "C78_counts is the full statement for any sequence of pulses. With the MCPWM/PCNT driver proved for attachment at any time of any schedule of C72/C73, with the RMT drivers at standstill. False if the direction pin is set after the attachment (refuted)."
  },
  {
   "property": "C79",
   "status": "partial",
   "theorems": [
    "FAS.C79_avr_partial",
    "FAS.C79_mcpwm_partial",
    "FAS.C79_rmt_partial",
    "FAS.C79_due_partial",
    "FAS.C79_avr_fast_partial",
    "FAS.C79_mcpwm_fast_partial",
    "FAS.C79_rmt_fast_partial",
    "FAS.C79_due_fast_partial"
   ],
   "note": "Composition of C57 (task) with C08/C09 (AVR), C72/C73 (MCPWM/PCNT), C50/C77 (RMT) and C52/C64 (SAM Due) over the list of commands queued. Restrictions of these apply: set periods of at least L ticks (no upper limit) without jump start, any linear acceleration, any acceleration, commands in time on AVR, commands which can be encoded on RMT, safe turns on SAM Due; with an on-delay of the enable pin the motor is not disabled while the queue is running. The theorems with _fast: set speeds with a period below the minimum command time, under the conditions of C87."
  },
  {
   "property": "C80",
   "status": "partial",
   "theorems": [
    "FAS.C80_moveTo_partial",
    "FAS.C80_move_partial",
    "FAS.C80_run_partial",
    "FAS.C80_stop_refuted",
    "FAS.C80_stale_byte_refuted",
    "FAS.C80_second_core_refuted"
   ],
   "note": "All points of interruption and any number of task cycles at each. Without an immediate stop waiting for the task (refuted otherwise: stale byte written back), without a rejected command, and with the task not on a second core (refuted). moveTo() to what the call takes for the present target: only if the ramp is idle or on course, refuted for a ramp about to stop. move(): ramp on course."
  },
  {
   "property": "C81",
   "status": "proved",
   "theorems": [
    "FAS.C81_punctual",
    "FAS.C81_ticks_in_queue",
    "FAS.C81_deadline_sharp"
   ],
   "note": "Internal direction pin. addQueueEntry() takes less than 40 us from its critical section to its end; an interrupt is served before the one after it is due (as in C08-C10). The deadline is sharp: C81_deadline_sharp."
  },
  {
   "property": "C82",
   "status": "partial",
   "theorems": [
    "FAS.C82_supplied_partial",
    "FAS.C82_in_time_partial",
    "FAS.C82_speed_refuted"
   ],
   "note": "Set speeds with a period of a multiple of 65536 ticks are excluded (refuted). With the queue full, the supply is what fits into it: the minimum duration of a command is guaranteed for each entry only."
  },
  {
   "property": "C83",
   "status": "partial",
   "theorems": [
    "FAS.AvrTimer.C83_independent_partial",
    "FAS.AvrTimer.C83_pulses_partial",
    "FAS.AvrTimer.C83_undivided_partial",
    "FAS.AvrTimer.C83_extra_step_refuted",
    "FAS.AvrTimer.C83_lost_step_refuted",
    "FAS.AvrTimer.C83_stuck_refuted",
    "FAS.AvrTimer.C83_slow_start_refuted"
   ],
   "note": "Holds if the bits of other steppers in the output mode register and in the interrupt enable register do not change between load and store by connect, start or force stop (in particular if interrupts were disabled there). They are not disabled in the code: an extra step, a lost step, or a stepper which stays running without any step until force stopped (refuted). Also required: the start is complete within 32768 ticks (refuted otherwise), and calls for one stepper are not interrupted by calls for the same stepper."
  },
  {
   "property": "C84",
   "status": "proved",
   "theorems": [
    "FAS.AvrTimer.C84_task_alive"
   ],
   "note": "No restriction on the schedule."
  },
  {
   "property": "C85",
   "status": "partial",
   "theorems": [
    "FAS.C85_can_stop_partial",
    "FAS.C85_fast_refuted",
    "FAS.C85_jump_refuted"
   ],
   "note": "For speeds up to one step per MIN_CMD_TICKS (with linear acceleration: 15 percent slower), without jump start, settings constant. Refuted for ESP32 at 80 ticks and 1e7 steps/s\u00b2: the planner looks ahead by 400 steps but a command has at most 255. Refuted with jump start: after a move of one step the ramp is at its set speed with stepsToStop() = 0, and a further move goes on from there."
  },
  {
   "property": "C86",
   "status": "partial",
   "theorems": [
    "FAS.C86_trapezoid_partial"
   ],
   "note": "For speeds up to one step per MIN_CMD_TICKS (with linear acceleration: 15 percent slower), without jump start, settings constant."
  },
  {
   "property": "C87",
   "status": "partial",
   "theorems": [
    "FAS.C87_fast_move_partial",
    "FAS.C87_fast_move_clear_partial",
    "FAS.C87_fast_long_move_partial",
    "FAS.C87_fast_move_refuted"
   ],
   "note": "Proved for every distance up to 2000000 steps, accelerations up to 500000 steps/s\u00b2 and speeds up to 127 steps in 2 ms, without jump start or linear acceleration, if no number of steps is too short for a command at the set speed but long enough at the speed which the ramp has that many steps before its end (C87_fast_move_partial); this holds if no number of steps is up to 6 % too short at the set speed (C87_fast_move_clear_partial). Without this guard proved for distances from 2.1 ideal ramp lengths plus 14 ms at the set speed and up to 1000000 steps/s\u00b2 (C87_fast_long_move_partial). False without any guard: C87_fast_move_refuted, a move to 257 stops at 130. Missing: higher speeds and accelerations, changes on the way."
  },
  {
   "property": "C88",
   "status": "partial",
   "theorems": [
    "FAS.C88_pulse_times_partial",
    "FAS.C88_slow_pulse_times_partial",
    "FAS.C88_min_distance_partial",
    "FAS.C88_fast_pause_refuted",
    "FAS.C88_first_pause_refuted",
    "FAS.C88_late_pause_refuted"
   ],
   "note": "Exact pulse times for all schedules in which the PWM interrupt at the begin of a pause is not ignored (C88_slow_pulse_times_partial: if commands followed by a pause have at least 100 \u00b5s plus latency between steps, within the first 71 minutes of micros()); a pause as first command of a queue counts from one pause after the start, unless a PWM interrupt is pending. Pulses are never closer than the shortest period. Without these conditions false, see the refutations. Without force stop, and without the race of C64. Missing: delays within the interrupt routines."
  },
  {
   "property": "C89",
   "status": "partial",
   "theorems": [
    "FAS.C89_channels",
    "FAS.C89_independent_partial",
    "FAS.C89_pulses_partial",
    "FAS.C89_connect_refuted",
    "FAS.C89_detach_refuted"
   ],
   "note": "C89_channels is proved for all schedules. Independence is proved for schedules in which steppers are connected and reattached only while no stepper on the channels 0 to 3 is in a pause, and detached only while not running; without this false, see the refutations. Common timing of the pin interrupts is not modelled."
  },
  {
   "property": "C90",
   "status": "partial",
   "theorems": [
    "FAS.C90_real_time_partial",
    "FAS.C90_ends_partial",
    "FAS.C90_any_speed_partial",
    "FAS.C90_any_speed_ends_partial",
    "FAS.C90_few_short_commands_partial"
   ],
   "note": "Proved for set speeds of at least minCmdTicks ticks per step (as C57), without jump start and without on-delay of the enable pin, if cycle time + queueing time + latency is less than the forward planning time less 65535 ticks and less than the duration of a full queue. C90_ends_partial (the move is over within a time which depends on the move only) moreover needs a stepper without delay at changes of direction. The duration of a full queue depends on the set speed in these two theorems. C90_any_speed_partial and C90_any_speed_ends_partial have a limit of (queueLen - 5) * 11000 ticks (7.5 ms) which does not depend on it, for accelerations of up to 700000 steps/s^2 without linear acceleration: at most three commands of such a move take less than 11000 ticks (C90_few_short_commands_partial). Not proved for speeds above 25000 steps/s and for set speeds of an exact multiple of 65536 ticks."
  },
  {
   "property": "C91",
   "status": "partial",
   "theorems": [
    "FAS.C91_channels",
    "FAS.C91_pin",
    "FAS.C91_independent_partial",
    "FAS.C91_output_partial",
    "FAS.C91_enable_bit_refuted",
    "FAS.C91_reset_bit_refuted",
    "FAS.C91_pulse_counter_refuted"
   ],
   "note": "C91_channels and C91_pin are proved for all schedules. Independence is proved for schedules in which no copy of a shared register is written back after another stepper has changed it, a stepper runs only with its step pin attached, and attachToPulseCounter() is called only for free pulse counters; without this false, see the refutations. C91_output_partial moreover has the restrictions of C72 for the stepper alone. Steppers of the RMT driver are not part of this model."
  },
  {
   "property": "C92",
   "status": "partial",
   "theorems": [
    "FAS.C92_wire_partial",
    "FAS.C92_all_sent_partial",
    "FAS.C92_force_stop",
    "FAS.C92_force_stop_ends_partial",
    "FAS.C92_force_stop_refuted",
    "FAS.C92_late_refuted",
    "FAS.C92_detach_refuted",
    "FAS.C92_c3_wire_partial",
    "FAS.C92_c3_all_sent_partial",
    "FAS.C92_c3_force_stop",
    "FAS.C92_c3_force_stop_ends",
    "FAS.C92_c3_late_refuted",
    "FAS.C92_c3_detach_refuted"
   ],
   "note": "Proved for the drivers of the ESP32/ESP32S2 and (C92_c3_...) of the C3/S3 with IDF 4, for commands which can be encoded (as C50), interrupts served before the peripheral has finished the part being sent, and detachFromPin() only while nothing is sent. C92_force_stop and C92_c3_force_stop hold in every state; C92_c3_force_stop_ends for every schedule; C92_force_stop_ends_partial if no end interrupt is pending at the moment of the force stop. Without these conditions false, see the refutations."
  },
  {
   "property": "C93",
   "status": "partial",
   "theorems": [
    "FAS.C93_channels",
    "FAS.C93_pin",
    "FAS.C93_independent_partial",
    "FAS.C93_independent",
    "FAS.C93_output_partial",
    "FAS.C93_ena_refuted"
   ],
   "note": "C93_channels and C93_pin are proved for all schedules; independence for all schedules on ESP32/ESP32S2 (C93_independent; the functions of the IDF used there to modify the interrupt enable register are taken as atomic), and on S3/C3 for schedules in which the interrupt enable register is not written back from an outdated copy; without this false (C93_ena_refuted). C93_output_partial moreover has the restrictions of C92 for the stepper alone. IDF 4 only."
  },
  {
   "property": "C94",
   "status": "partial",
   "theorems": [
    "FAS.C94_stopMove_partial",
    "FAS.C94_forceStop",
    "FAS.C94_keepRunning_partial",
    "FAS.C94_apply",
    "FAS.C94_new_position",
    "FAS.C94_set_position",
    "FAS.C94_setters",
    "FAS.C94_nonvacuous",
    "FAS.C94_stale_byte_refuted",
    "FAS.C94_keep_refuted",
    "FAS.C94_second_core_refuted"
   ],
   "note": "forceStop(), applySpeedAcceleration(), forceStopAndNewPosition(), setCurrentPosition() and the setters are proved for all interruptions by complete task cycles; stopMove() if no forceStop() waits for the task, keepRunning() if no command waits for the task; without this false, and with the task on a second core, so that the call comes within a task cycle, also false, see the refutations."
  },
  {
   "property": "C95",
   "status": "partial",
   "theorems": [
    "FAS.C95_settings",
    "FAS.C95_target_partial",
    "FAS.C95_position_idle_partial",
    "FAS.C95_position_partial",
    "FAS.C95_period_partial",
    "FAS.C95_jump_start_partial",
    "FAS.C95_position_refuted",
    "FAS.C95_target_refuted",
    "FAS.C95_period_refuted",
    "FAS.C95_jump_start_refuted"
   ],
   "note": "Holds for the settings; for targetPos() and setJumpStart() if no command waits for the task; for getPositionAfterCommandsCompleted() with an idle ramp, and while the end of the queue stays within a block of 256 positions. Otherwise false of the code: the accesses are not protected by disabled interrupts (refuted theorems)."
  },
  {
   "property": "C96",
   "status": "partial",
   "theorems": [
    "FAS.C96_ticks_partial",
    "FAS.C96_has_ticks_partial",
    "FAS.C96_realtime_speed_partial",
    "FAS.C96_ticks_refuted",
    "FAS.C96_realtime_speed_refuted"
   ],
   "note": "Every access to an entry is a step of its own, and any events happen in between. Proved if not more commands are offered to the queue during the call than there was room for at its begin. False otherwise (refuted): an entry which is completed and replaced between two accesses is read as a mixture of both commands."
  },
  {
   "property": "C97",
   "status": "partial",
   "theorems": [
    "FAS.C97_drive_partial",
    "FAS.C97_run_partial"
   ],
   "note": "Proved for calls between task cycles of moveTo, move, runForward, runBackward, keepRunning, stopMove, and of setters of speed (periods of L to 65535 ticks, L at least minCmdTicks), acceleration and linear acceleration, with the timing limits of C90. C97_run_partial: after runForward() or runBackward() with setters only the ramp is never finished and the motor never stops. Missing: a jump start, immediate stops, a new command after the ramp is finished and before the queue is empty, periods below minCmdTicks and above 65535, an on-delay of the enable pin."
  },
  {
   "property": "C98",
   "status": "partial",
   "theorems": [
    "FAS.C98_redirect_partial",
    "FAS.C98_moveTo_partial",
    "FAS.C98_move_partial"
   ],
   "note": "C98_redirect_partial: for any history with set speeds of L to 65535 ticks (L at least minCmdTicks and the limit of the driver) and without jump start, any state of the active ramp without a pending immediate stop, any new speed in this range, any acceleration and target for which the ramp does not calculate periods of less than one tick (all targets up to 20000 steps/s2). C98_moveTo_partial and C98_move_partial: moveTo() and move() after any history of changing speeds, accelerations and linear accelerations. Missing: jump start, slower and faster speeds; a moveTo() which the task has not served yet is discarded by move() (C43_pending_moveTo_refuted)."
  },
  {
   "property": "C99",
   "status": "partial",
   "theorems": [
    "FAS.C99_stop_partial"
   ],
   "note": "For any history with changing set speeds of L to 65535 ticks (L at least minCmdTicks and the limit of the driver), accelerations of at most A and linear accelerations, and without jump start; any state of the active ramp without a pending immediate stop; if an applied change of the acceleration has not been taken over by the task yet, stepsToStop() is replaced by the braking distance with the new acceleration; accelerations and braking distances for which the ramp does not calculate periods of less than one tick (all braking distances below 2^31 up to 20000 steps/s2). Missing: jump start, slower and faster speeds."
  },
  {
   "property": "C100",
   "status": "partial",
   "theorems": [
    "FAS.C100_stop_avr_partial",
    "FAS.C100_moveTo_avr_partial",
    "FAS.C100_stop_mcpwm_partial",
    "FAS.C100_moveTo_mcpwm_partial",
    "FAS.C100_stop_rmt_partial",
    "FAS.C100_moveTo_rmt_partial",
    "FAS.C100_stop_due_partial",
    "FAS.C100_moveTo_due_partial"
   ],
   "note": "Composition of C99 and C98 (task) with C08/C09 (AVR), C72/C73 (MCPWM/PCNT), C50/C77 (RMT) and C52/C64 (SAM Due) over all commands queued since the hardware was idle. Restrictions of these apply: set speeds of L to 65535 ticks without jump start, accelerations of at most A for which the ramp does not calculate periods of less than one tick, commands in time on AVR, commands which can be encoded on RMT, safe turns on SAM Due."
  }
 ]
}