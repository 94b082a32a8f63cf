c("C01","proved","C01_queue_is_bounded_fifo")
c("C02","proved","C02_add_decision C02_start_decision")
c("C03","proved","C03_position_after_commands")
c("C04","proved","C04_current_position_exact","ESP32: relative to the hardware pulse counter (MCPWM/PCNT with its races is C76); the RMT driver always reports 0 performed pulses, so there the position advances per command (C77).")
c("C05","proved","C05_ticks_in_queue")
c("C06","proved","C06_has_ticks_in_queue")
c("C07","proved","C07_realtime_speed")
c("C08","partial","C08_pulse_count_partial C08_late_start_refuted","Proved for every schedule except one race, for which the claim is false of the code (refuted theorem): addQueueEntry starting an empty queue.")
c("C09","partial","C09_direction_and_position_partial C09_late_command_refuted","Proved while commands arrive before the last pulse of the previous one; false of the code for later arrival (refuted theorem).")
c("C10","partial","C10_pulse_train_partial C10_late_command_refuted C10_late_pause_refuted","Proved while commands arrive before the last pulse of the previous one; false of the code for arrival within the last period (refuted theorems).")
c("C11","proved","C11_start_not_lost C11_all_executed_partial")
c("C12","partial","C12_force_stop_partial C12_later_commands_partial C12_ignored_command_refuted C12_extra_pulse_refuted","Two violations in the code: an ignored command with start flag creates a pulse; a stale flag doubles the first step after a force stop.")
c("C13","partial","C13_direction_delay_partial C13_short_pause_refuted C13_force_stop_refuted C13_C14_late_enable_refuted","Proved for every history of accepted commands with steps; three violations of the code shown: raw pause with flipped direction, force stop dropping a pending direction change, enable pauses lost in an almost full queue.")
c("C14","partial","C14_enable_delay_partial C13_C14_late_enable_refuted","Proved if the queue has room for the enable pauses; otherwise false of the code (refuted theorem).")
c("C15","proved","C15_rejected_without_effect")
c("C16","partial","C16_confirmed_partial C16_waits_partial C16_turns_at_pauses C16_two_pauses_partial C16_low_counts_up_refuted C16_force_stop_refuted C16_task_polls C16_rmt_confirmed_partial C16_rmt_waits_partial C16_rmt_early_refuted C16_rmt_rejected_refuted C16_mcpwm_confirmed_partial C16_mcpwm_waits_partial","AVR, RMT and MCPWM/PCNT; the first clause is false if LOW counts up, with a force stop before the confirmation, with a rejected direction change, and for RMT if the pulses instead of the handed over parts are considered; the clause on two pauses is proved outside the on-delay block of auto enable")
c("C17","proved","C17_direction_delay_clamped")
c("C18","partial","C18_delay_to_enable_partial C18_long_delay_refuted","Proved while delay*ticks-per-us fits 32 bits; beyond that the conversion wraps and the claim is false of the code.")
c("C19","proved","C19_delay_to_disable C19_kept")
c("C20","proved","C20_enable_pin_polarity C20_enable_levels C20_external_pin_both_polarities C20_external_result")
c("C25","partial","C25_speed_setters C27_set_milliHz_partial C27_sam_refuted","Proved for ticks, microseconds and Hz on every architecture and for milliHz except on SAM Due, where the conversion overflows.")
c("C26","proved","C26_hz_nearest")
c("C27","partial","C27_set_milliHz_partial C27_get_milliHz_partial C27_get_defined C27_sam_refuted C27_long_period_refuted","Proved except for SAM Due and for very long periods, where the 32 bit product overflows (refuted theorems).")
c("C28","proved","C28_us_exact C28_us_read_back")
c("C55","proved","C55_forward_planning")
c("C21","partial","C21_auto_disable_partial C21_levels C21_chained_pins_refuted","Proved if the relation 'shares an enable pin' is transitive; otherwise false of the code (stepper with two enable pins, refuted theorem).")
c("C22","proved","C22_auto_disable C22_cycle C22_armed")
c("C23","proved","C23_connect C23_failure")
c("C24","partial","C24_busy_pin_rejects C24_exclusive_partial C24_null_start_refuted","Rejection proved. Exclusivity proved for all histories which do not start a blocked non-empty queue directly; with addQueueEntry(NULL,true) it is false of the code.")
c("C41","proved","C41_stop_target")
c("C42","proved","C42_move_errors")
c("C43","partial","C43_targets_partial C43_pending_moveTo_refuted","Proved for all histories in which move() is not called while a moveTo() still waits for the task; otherwise the moveTo() is lost (refuted theorem).")
c("C44","partial","C44_force_stop_partial C44_pending_move_refuted","Proved if no move command is still waiting for the task; otherwise the force stop is dropped (refuted theorem).")
c("C45","partial","C45_set_position_partial C45_pending_commands_refuted","Remaining way, end position and (for an empty queue) current position proved; with pending commands the current position is wrong (refuted theorem).")
c("C48","proved","C48_current_acceleration C48_set_acceleration")
c("C53","proved","C53_not_running")
c("C58","partial","C58_move_from_standstill_partial C58_moveTo_starts C58_move_after_forwardStep_refuted","Proved if the last position change was done by the ramp generator; false after forwardStep() or raw commands.")

c("C34","proved","C34_well_formed")
c("C35","partial","C35_accepted_partial C35_never_aborted_partial C35_last_steps_refuted C35_high_speed_refuted C35_jump_start_refuted C35_slow_speed_change_refuted C35_auto_enable_refuted","Proved for all histories with set periods between the minimum command time and 65535 ticks without jump start; false for higher speeds, with jump start and for changes to periods above 65535 ticks (refuted theorems). With a delay after enabling the motor, it must not be disabled while the queue is running (Powered); setAutoEnable(true) during a move breaks this and puts the delay between two steps (C35_auto_enable_refuted).")
c("C36","partial","C36_period_conserved_partial C36_slow_speed_change_refuted","Proved except if a set speed above 65535 ticks is reached while decelerating, where it is false (refuted theorem).")
c("C37","proved","C37_service C37_finished_at_target")
c("C38","partial","C38_start_direction_partial C38_no_overshoot C38_jump_start_refuted","No overshoot proved for all states; start direction proved without jump start, false with jump start (refuted theorem).")
c("C39","partial","C39_speed_limit_partial C36_slow_speed_change_refuted C39_standstill_refuted","Proved for the moving motor and from standstill for set periods of at least the minimum command time, except for the cases of the refuted theorems.")
c("C40","partial","C40_monotone_partial C36_slow_speed_change_refuted","Accelerating and coasting proved for all states; decelerating except for the clipping to a set speed (false above 65535 ticks, refuted theorem).")
c("C54","proved","C54_run_keeps_running")
c("C56","partial","C56_steps_to_stop_partial C56_uninitialised_refuted","0 after an immediate stop; after a finished move the value comes from uninitialised memory (refuted theorem).")
c("C57","partial","C57_move_finishes_partial C57_arrives_partial C57_moveTo_arrives_partial C57_plain_moveTo_arrives_partial C57_task_arrives_partial","C57_task_arrives_partial: any acceleration, any set speed of at least L ticks, any linear acceleration, with the cyclic task (fill_queue), any hardware progress and refusals in between: no undefined behaviour, idle only at the target, idle after finitely many unhindered task cycles; also with a delay after enabling the motor, unless it is disabled while the queue is running. C57_plain_moveTo_arrives_partial: moveTo() from any standstill with any set speed (also slow ones with a period above 65535 ticks), any linear acceleration, any acceleration and every distance except exactly 2^31 arrives (set speeds above the minimum command time; for others: 5 * acceleration * max(40000, distance + 1) <= (ticks per second)^2). C57_moveTo_arrives_partial: also with jump start for set speeds of up to 65535 ticks if no period of the ramp is 0. C57_arrives_partial and C57_move_finishes_partial: any moving state; changes and stops in between. For set periods below the minimum command time see C87. Missing: jump start combined with slow set speeds (above 65535 ticks) or with an acceleration so high that the ramp law gives a period of 0 ticks within the distance.")
c("C59","partial","C59_run_starts_partial C59_run_after_forceStop_refuted C59_jump_start_refuted","Proved without pending force stop and without jump start in the other direction; false otherwise (refuted theorems).")
c("C30","proved","C30_round_trip")
c("C31","proved","C31_monotone")
c("C32","partial","C32_period_no_overflow C32_ramp_steps_no_overflow_partial C32_ramp_steps_refuted","16 bit arithmetic proved equal to unbounded arithmetic for all accelerations, steps >= 1, periods >= 1 and linear acceleration below 2^32-2 steps; the 32 bit sum of ramp steps and the linear acceleration offset can wrap (refuted theorem).")
c("C33","proved","C33_sqrt_law C33_cubic_law")
c("C60","partial","C60_period_monotone_partial C60_linear_partial C60_linear_acceleration_refuted","Proved without linear acceleration; false with linear acceleration (rounding of one third of a logarithm), where the period rises by at most 2.01 % and 2.02 ticks.")
c("C61","proved","C61_ramp_steps_law C61_planned_ramp_steps")
c("C46","partial","C46_steps_and_time_partial C46_min_steps_refuted C46_actual_duration_refuted","Proved for all arguments but steps = -32768 (does not move) and, for *actual_duration, up to 255 steps or slow steps (above it is over-reported).")
c("C47","partial","C47_rejected_no_effect C47_fits_partial C47_pause_fit_refuted C47_slow_fit_refuted C47_slowest_fit_refuted C47_half_refuted C47_period_refuted","Rejection without effect proved; the fit check is proved exact for evenly splitting, legal arguments without inserted pauses, and refuted for others.")
c("C49","proved","C49_terminates C49_planning C49_planning_progress C49_inactive")
c("C62","partial","C62_result_tells_partial C62_ignored_refuted C62_no_effect_refuted","Proved unless commands are ignored after a force stop; refuted there.")
c("C50","partial","C50_output_partial C50_memory C50_short_period_refuted C50_fast_limit_sharp C50_longest_period_refuted C50_duration_refuted C50_inserted_pause_refuted","Proved for all schedules and commands within the exact limits of the encoder (RmtVer.Encodable; C3/S3 with a tolerance of 4 ticks); outside these limits refuted.")
c("C51","proved","C51_direction")
c("C63","partial","C63_all_sent_partial C63_late_start_refuted C63_ignored_start_refuted","Proved for encodable commands from any point of a transmission; on IDF 4 starting an empty queue leaves the motor running forever (refuted).")
c("C52","partial","C52_direction_partial C52_pause_turn_refuted C52_after_pause_refuted C52_late_turn_refuted","Proved for schedules in which the commands before and after each change of direction have steps and are queued together; changes at or after pauses, and commands added too late, are refuted.")
c("C64","partial","C64_pulses_partial C64_all_executed_partial C64_force_stop_refuted C64_empty_start_refuted","Proved for all schedules without force stop and without the start of an empty queue; both exceptions refuted (endless pulses, skipped command).")
c("C29","partial","C29_ramp_speed_partial C29_queue_speed_partial C29_not_started_refuted C29_sam_refuted C29_single_step_refuted","Proved for both sources of the speed (ramp: from each step command until the next; queue: every history); the value before the first service of a ramp, mHz on SAM Due and a single step without ramp are refuted.")
c("C65","partial","C65_no_op C65_at_most_one_step C65_one_step_partial C65_three_steppers_refuted","At most one step and the no-op cases without restriction; exactly one step under the stated guards; on AVR with three steppers the calls do nothing (refuted).")
c("C66","partial","C66_by_acceleration_partial C66_zero_partial C66_zero_speeds_up_refuted","Proved for all accelerations except 0 and INT32_MIN; with 0 the speed is not kept (refuted), C66_zero_partial says what happens instead.")
c("C67","partial","C67_limit_of_connected C67_units_partial C67_milliHz_refuted C67_limit_is_accepted_partial C67_us_not_accepted_refuted","Limit per number of steppers for all connect histories; units exact, except mHz on SAM Due and setting the reported limit in us (both refuted).")
c("C68","partial","C68_period_at_end_partial","From each step command until the next one; the exceptions are those of C29 and C36.")
c("C69","partial","C69_no_effect_before_apply C69_used_after_apply C69_apply_without_change C69_pending_refuted","Both directions proved for all interleavings once the task has seen the latest move command; values set between a move command and its first service are used without a further call (refuted). Jump start is covered by the first part only.")
c("C70","partial","C70_keeps_running_partial C70_reverses_refuted C70_apply_refuted","Runs on continuously, but in the direction of the latest run command or forward after move()/moveTo(), see the refutations.")
c("C71","proved","C71_position_counts_commands C71_moveTimed_position_partial","C71_moveTimed_position_partial adds the consequence for a successful moveTimed() under the conditions of C46.")
c("C72","partial","C72_periods_partial C72_all_executed_partial C72_late_refuted C72_empty_start_refuted C72_other_channel_refuted C72_limit_readback_refuted","Exact output, remaining work and termination for all interleavings with interrupts served within the period and a pulse counter with delayed take over of the limit; the refutations show that every assumption is needed.")
c("C73","partial","C73_direction_partial","Under the assumptions of C72; local direction pins (external pins are C16).")
c("C74","partial","C74_no_pulse_lost_partial C74_last_pulse_refuted","All arrival points for two or more missing pulses; for the last pulse refuted: limit 0 with the interrupt disabled.")
c("C75","partial","C75_force_stop_partial C75_later_commands_partial C75_pending_interrupt_refuted","Any state and any pulse counter. Missing: commands with start flag before the next move (as C12), and a force stop with the interrupt of the pulse counter pending (refuted).")
c("C76","partial","C76_position_partial C76_outdated_end_refuted C76_stale_counter_refuted","All interleavings under the assumptions of C72, both critical sections of getCurrentPosition(). Missing: a command queued and finished between the two critical sections, and a command queued without start after a force stop (both refuted).")
c("C77","partial","C77_position_partial C77_standstill_partial C77_lag_refuted C77_ahead_refuted C77_outdated_end_refuted","Exact position at standstill and command by command in motion, all versions and interleavings, for commands which can be encoded (C50). Pulse by pulse it is refuted: the position lags within a command and counts a command when it is handed over, before its pulses are sent.")
c("C78","partial","C78_counts C78_other_cases C78_mcpwm_partial C78_rmt_partial C78_attached_before_direction_refuted","C78_counts is the full statement for any sequence of pulses. With the MCPWM/PCNT driver proved for attachment at any time of any schedule of C72/C73, with the RMT drivers at standstill. False if the direction pin is set after the attachment (refuted).")
c("C79","partial","C79_avr_partial C79_mcpwm_partial C79_rmt_partial C79_due_partial C79_avr_fast_partial C79_mcpwm_fast_partial C79_rmt_fast_partial C79_due_fast_partial","Composition of C57 (task) with C08/C09 (AVR), C72/C73 (MCPWM/PCNT), C50/C77 (RMT) and C52/C64 (SAM Due) over the list of commands queued. Restrictions of these apply: set periods of at least L ticks (no upper limit) without jump start, any linear acceleration, any acceleration, commands in time on AVR, commands which can be encoded on RMT, safe turns on SAM Due; with an on-delay of the enable pin the motor is not disabled while the queue is running. The theorems with _fast: set speeds with a period below the minimum command time, under the conditions of C87.")
c("C80","partial","C80_moveTo_partial C80_move_partial C80_run_partial C80_stop_refuted C80_stale_byte_refuted C80_second_core_refuted","All points of interruption and any number of task cycles at each. Without an immediate stop waiting for the task (refuted otherwise: stale byte written back), without a rejected command, and with the task not on a second core (refuted). moveTo() to what the call takes for the present target: only if the ramp is idle or on course, refuted for a ramp about to stop. move(): ramp on course.")
c("C81","proved","C81_punctual C81_ticks_in_queue C81_deadline_sharp","Internal direction pin. addQueueEntry() takes less than 40 us from its critical section to its end; an interrupt is served before the one after it is due (as in C08-C10). The deadline is sharp: C81_deadline_sharp.")
c("C82","partial","C82_supplied_partial C82_in_time_partial C82_speed_refuted","Set speeds with a period of a multiple of 65536 ticks are excluded (refuted). With the queue full, the supply is what fits into it: the minimum duration of a command is guaranteed for each entry only.")
c("C83","partial","AvrTimer.C83_independent_partial AvrTimer.C83_pulses_partial AvrTimer.C83_undivided_partial AvrTimer.C83_extra_step_refuted AvrTimer.C83_lost_step_refuted AvrTimer.C83_stuck_refuted AvrTimer.C83_slow_start_refuted","Holds if the bits of other steppers in the output mode register and in the interrupt enable register do not change between load and store by connect, start or force stop (in particular if interrupts were disabled there). They are not disabled in the code: an extra step, a lost step, or a stepper which stays running without any step until force stopped (refuted). Also required: the start is complete within 32768 ticks (refuted otherwise), and calls for one stepper are not interrupted by calls for the same stepper.")
c("C84","proved","AvrTimer.C84_task_alive","No restriction on the schedule.")
c("C85","partial","C85_can_stop_partial C85_fast_refuted C85_jump_refuted","For speeds up to one step per MIN_CMD_TICKS (with linear acceleration: 15 percent slower), without jump start, settings constant. Refuted for ESP32 at 80 ticks and 1e7 steps/s²: the planner looks ahead by 400 steps but a command has at most 255. Refuted with jump start: after a move of one step the ramp is at its set speed with stepsToStop() = 0, and a further move goes on from there.")
c("C86","partial","C86_trapezoid_partial","For speeds up to one step per MIN_CMD_TICKS (with linear acceleration: 15 percent slower), without jump start, settings constant.")
c("C87","partial","C87_fast_move_partial C87_fast_move_clear_partial C87_fast_long_move_partial C87_fast_move_refuted","Proved for every distance up to 2000000 steps, accelerations up to 500000 steps/s² and speeds up to 127 steps in 2 ms, without jump start or linear acceleration, if no number of steps is too short for a command at the set speed but long enough at the speed which the ramp has that many steps before its end (C87_fast_move_partial); this holds if no number of steps is up to 6 % too short at the set speed (C87_fast_move_clear_partial). Without this guard proved for distances from 2.1 ideal ramp lengths plus 14 ms at the set speed and up to 1000000 steps/s² (C87_fast_long_move_partial). False without any guard: C87_fast_move_refuted, a move to 257 stops at 130. Missing: higher speeds and accelerations, changes on the way.")
c("C88","partial","C88_pulse_times_partial C88_slow_pulse_times_partial C88_min_distance_partial C88_fast_pause_refuted C88_first_pause_refuted C88_late_pause_refuted","Exact pulse times for all schedules in which the PWM interrupt at the begin of a pause is not ignored (C88_slow_pulse_times_partial: if commands followed by a pause have at least 100 µs plus latency between steps, within the first 71 minutes of micros()); a pause as first command of a queue counts from one pause after the start, unless a PWM interrupt is pending. Pulses are never closer than the shortest period. Without these conditions false, see the refutations. Without force stop, and without the race of C64. Missing: delays within the interrupt routines.")
c("C89","partial","C89_channels C89_independent_partial C89_pulses_partial C89_connect_refuted C89_detach_refuted","C89_channels is proved for all schedules. Independence is proved for schedules in which steppers are connected and reattached only while no stepper on the channels 0 to 3 is in a pause, and detached only while not running; without this false, see the refutations. Common timing of the pin interrupts is not modelled.")
c("C90","partial","C90_real_time_partial C90_ends_partial C90_any_speed_partial C90_any_speed_ends_partial C90_few_short_commands_partial","Proved for set speeds of at least minCmdTicks ticks per step (as C57), without jump start and without on-delay of the enable pin, if cycle time + queueing time + latency is less than the forward planning time less 65535 ticks and less than the duration of a full queue. C90_ends_partial (the move is over within a time which depends on the move only) moreover needs a stepper without delay at changes of direction. The duration of a full queue depends on the set speed in these two theorems. C90_any_speed_partial and C90_any_speed_ends_partial have a limit of (queueLen - 5) * 11000 ticks (7.5 ms) which does not depend on it, for accelerations of up to 700000 steps/s^2 without linear acceleration: at most three commands of such a move take less than 11000 ticks (C90_few_short_commands_partial). Not proved for speeds above 25000 steps/s and for set speeds of an exact multiple of 65536 ticks.")
c("C91","partial","C91_channels C91_pin C91_independent_partial C91_output_partial C91_enable_bit_refuted C91_reset_bit_refuted C91_pulse_counter_refuted","C91_channels and C91_pin are proved for all schedules. Independence is proved for schedules in which no copy of a shared register is written back after another stepper has changed it, a stepper runs only with its step pin attached, and attachToPulseCounter() is called only for free pulse counters; without this false, see the refutations. C91_output_partial moreover has the restrictions of C72 for the stepper alone. Steppers of the RMT driver are not part of this model.")
c("C92","partial","C92_wire_partial C92_all_sent_partial C92_force_stop C92_force_stop_ends_partial C92_force_stop_refuted C92_late_refuted C92_detach_refuted C92_c3_wire_partial C92_c3_all_sent_partial C92_c3_force_stop C92_c3_force_stop_ends C92_c3_late_refuted C92_c3_detach_refuted","Proved for the drivers of the ESP32/ESP32S2 and (C92_c3_...) of the C3/S3 with IDF 4, for commands which can be encoded (as C50), interrupts served before the peripheral has finished the part being sent, and detachFromPin() only while nothing is sent. C92_force_stop and C92_c3_force_stop hold in every state; C92_c3_force_stop_ends for every schedule; C92_force_stop_ends_partial if no end interrupt is pending at the moment of the force stop. Without these conditions false, see the refutations.")
c("C93","partial","C93_channels C93_pin C93_independent_partial C93_independent C93_output_partial C93_ena_refuted","C93_channels and C93_pin are proved for all schedules; independence for all schedules on ESP32/ESP32S2 (C93_independent; the functions of the IDF used there to modify the interrupt enable register are taken as atomic), and on S3/C3 for schedules in which the interrupt enable register is not written back from an outdated copy; without this false (C93_ena_refuted). C93_output_partial moreover has the restrictions of C92 for the stepper alone. IDF 4 only.")
c("C94","partial","C94_stopMove_partial C94_forceStop C94_keepRunning_partial C94_apply C94_new_position C94_set_position C94_setters C94_nonvacuous C94_stale_byte_refuted C94_keep_refuted C94_second_core_refuted","forceStop(), applySpeedAcceleration(), forceStopAndNewPosition(), setCurrentPosition() and the setters are proved for all interruptions by complete task cycles; stopMove() if no forceStop() waits for the task, keepRunning() if no command waits for the task; without this false, and with the task on a second core, so that the call comes within a task cycle, also false, see the refutations.")
c("C95","partial","C95_settings C95_target_partial C95_position_idle_partial C95_position_partial C95_period_partial C95_jump_start_partial C95_position_refuted C95_target_refuted C95_period_refuted C95_jump_start_refuted","Holds for the settings; for targetPos() and setJumpStart() if no command waits for the task; for getPositionAfterCommandsCompleted() with an idle ramp, and while the end of the queue stays within a block of 256 positions. Otherwise false of the code: the accesses are not protected by disabled interrupts (refuted theorems).")
c("C96","partial","C96_ticks_partial C96_has_ticks_partial C96_realtime_speed_partial C96_ticks_refuted C96_realtime_speed_refuted","Every access to an entry is a step of its own, and any events happen in between. Proved if not more commands are offered to the queue during the call than there was room for at its begin. False otherwise (refuted): an entry which is completed and replaced between two accesses is read as a mixture of both commands.")
c("C97","partial","C97_drive_partial C97_run_partial","Proved for calls between task cycles of moveTo, move, runForward, runBackward, keepRunning, stopMove, and of setters of speed (periods of L to 65535 ticks, L at least minCmdTicks), acceleration and linear acceleration, with the timing limits of C90. C97_run_partial: after runForward() or runBackward() with setters only the ramp is never finished and the motor never stops. Missing: a jump start, immediate stops, a new command after the ramp is finished and before the queue is empty, periods below minCmdTicks and above 65535, an on-delay of the enable pin.")
c("C98","partial","C98_redirect_partial C98_moveTo_partial C98_move_partial","C98_redirect_partial: for any history with set speeds of L to 65535 ticks (L at least minCmdTicks and the limit of the driver) and without jump start, any state of the active ramp without a pending immediate stop, any new speed in this range, any acceleration and target for which the ramp does not calculate periods of less than one tick (all targets up to 20000 steps/s2). C98_moveTo_partial and C98_move_partial: moveTo() and move() after any history of changing speeds, accelerations and linear accelerations. Missing: jump start, slower and faster speeds; a moveTo() which the task has not served yet is discarded by move() (C43_pending_moveTo_refuted).")
c("C99","partial","C99_stop_partial","For any history with changing set speeds of L to 65535 ticks (L at least minCmdTicks and the limit of the driver), accelerations of at most A and linear accelerations, and without jump start; any state of the active ramp without a pending immediate stop; if an applied change of the acceleration has not been taken over by the task yet, stepsToStop() is replaced by the braking distance with the new acceleration; accelerations and braking distances for which the ramp does not calculate periods of less than one tick (all braking distances below 2^31 up to 20000 steps/s2). Missing: jump start, slower and faster speeds.")
c("C100","partial","C100_stop_avr_partial C100_moveTo_avr_partial C100_stop_mcpwm_partial C100_moveTo_mcpwm_partial C100_stop_rmt_partial C100_moveTo_rmt_partial C100_stop_due_partial C100_moveTo_due_partial","Composition of C99 and C98 (task) with C08/C09 (AVR), C72/C73 (MCPWM/PCNT), C50/C77 (RMT) and C52/C64 (SAM Due) over all commands queued since the hardware was idle. Restrictions of these apply: set speeds of L to 65535 ticks without jump start, accelerations of at most A for which the ramp does not calculate periods of less than one tick, commands in time on AVR, commands which can be encoded on RMT, safe turns on SAM Due.")
