{"id": "C01", "title": "Command queue is a bounded FIFO", "statement": "Commands accepted by addQueueEntry() are executed in exactly the order they were accepted, none is lost, duplicated or altered, queueEntries() always equals the number of accepted commands not yet completed, and that number never exceeds QUEUE_LEN.", "quantifier": "every architecture, every finite history of addQueueEntry calls, command completions and force stops, including any number of 8-bit index wrap-arounds", "why_tests_cant": "the ring indices are free running uint8_t counters; a test sees only a few wrap positions and fill levels, not every history", "anchors": ["src/StepperISR.cpp:StepperQueue::addQueueEntry", "src/StepperISR.h:queueEntries,isQueueFull,isQueueEmpty"]}
{"id": "C02", "title": "Queue level accept/reject decision", "statement": "A low level command is rejected with AQE_QUEUE_FULL exactly if QUEUE_LEN commands are pending, with AQE_ERROR_TICKS_TOO_LOW exactly if (not full and) max(1,steps)*ticks < MIN_CMD_TICKS, with AQE_DEVICE_NOT_READY exactly if the backend is not ready, and otherwise accepted; starting with a NULL command fails with AQE_ERROR_EMPTY_QUEUE_TO_START exactly if a stopped queue is empty; a rejected call changes neither the pending commands nor the position after completion.", "quantifier": "every architecture, every command (all 2^25 of them), every queue state", "why_tests_cant": "the product of commands and states is far beyond enumeration and rejection atomicity is about every state", "anchors": ["src/StepperISR.cpp:StepperQueue::addQueueEntry"]}
{"id": "C03", "title": "Position after completion is the signed step sum", "statement": "getPositionAfterCommandsCompleted() equals the position at start plus the signed number of steps of all accepted commands, modulo 2^32 (two's complement wrap as documented in README).", "quantifier": "every history of accepted and rejected commands of any length, every start position", "why_tests_cant": "needs induction over unbounded histories including 32 bit wrap", "anchors": ["src/StepperISR.cpp:StepperQueue::addQueueEntry", "src/FastAccelStepper.cpp:getPositionAfterCommandsCompleted"]}
{"id": "C04", "title": "getCurrentPosition is exact at every moment", "statement": "At any instant getCurrentPosition() equals the start position plus the signed number of steps already emitted: the position at the end of the queue minus all steps still to be done by the current and following commands, for every fill level and also across the 16 bit and 32 bit wrap of the position.", "quantifier": "every queue content of up to QUEUE_LEN commands with any directions, every progress of the current command, every 32 bit position", "why_tests_cant": "the code reconstructs the 32 bit position from 16 bit fragments with a 16-way case table whose 4 error cases must be unreachable for every content", "anchors": ["src/StepperISR.cpp:StepperQueue::getCurrentPosition"]}
{"id": "C05", "title": "ticksInQueue is the exact planned time", "statement": "ticksInQueue() is the sum of ticks*max(1,steps) over all pending commands except the one in process, without 32 bit overflow.", "quantifier": "every queue content", "why_tests_cant": "all contents/fill levels/wraps", "anchors": ["src/StepperISR.cpp:StepperQueue::ticksInQueue"]}
{"id": "C06", "title": "hasTicksInQueue agrees with ticksInQueue", "statement": "hasTicksInQueue(n) is true exactly if at least one command follows the one in process and the summed ticks of those following commands are at least n; for n>0 this is ticksInQueue() >= n.", "quantifier": "every queue content, every n", "why_tests_cant": "all contents times all 2^32 thresholds", "anchors": ["src/StepperISR.cpp:StepperQueue::hasTicksInQueue"]}
{"id": "C07", "title": "Realtime speed comes from the command in process", "statement": "If the realtime speed query on the queue reports a valid value, then it is 0 for an empty queue and otherwise the ticks and direction of the command in process, which has steps, and is either a multi step command or is followed by a command with steps; otherwise it reports invalid.", "quantifier": "every queue content", "why_tests_cant": "all contents", "anchors": ["src/StepperISR.cpp:StepperQueue::getActualTicksWithDirection"]}
{"id": "C08", "title": "AVR: exactly one pulse per accepted step", "statement": "On AVR, for every interleaving of step interrupts with addQueueEntry calls, the number of emitted step pulses plus the steps still pending equals the steps of all accepted commands; when the queue has stopped, every accepted step has been emitted exactly once.", "quantifier": "every schedule of the compare interrupt against application calls, every command sequence", "why_tests_cant": "interrupt timing cannot be enumerated by tests", "anchors": ["src/StepperISR_avr.cpp:AVR_STEPPER_ISR,AVR_START_QUEUE", "src/StepperISR.cpp:addQueueEntry"]}
{"id": "C09", "title": "AVR: every pulse has the commanded direction", "statement": "On AVR the direction pin has the level for the direction of the command whenever one of its step pulses is emitted, and getCurrentPosition() equals the start position plus the signed pulses emitted so far.", "quantifier": "every schedule and command sequence", "why_tests_cant": "interrupt timing cannot be enumerated", "anchors": ["src/StepperISR_avr.cpp:AVR_STEPPER_ISR,PREPARE_DIRECTION_PIN", "src/StepperISR.cpp:addQueueEntry"]}
{"id": "C10", "title": "AVR: pulses are exactly spaced as documented", "statement": "On AVR, as documented for stepper_command_s: the pulses of a command are exactly ticks apart, and the next command starts exactly ticks after the last pulse (or after a pause of ticks), as long as the next command arrives before the current one has completed; there is never a pulse distance below the requested ticks.", "quantifier": "every command sequence and every schedule of additions", "why_tests_cant": "interrupt timing and unbounded sequences", "anchors": ["src/StepperISR_avr.cpp:AVR_STEPPER_ISR", "src/fas_arch/common.h:stepper_command_s"]}
{"id": "C11", "title": "AVR: no schedule loses the start of the queue", "statement": "If addQueueEntry(cmd,start=true) returns AQE_OK, then whatever step interrupts occur between its internal phases, afterwards either the queue is running or the command has been completely processed (or commands are being ignored due to a force stop).", "quantifier": "every interleaving of interrupts with the phases of addQueueEntry", "why_tests_cant": "race windows are a few cycles wide", "anchors": ["src/StepperISR.cpp:addQueueEntry", "src/StepperISR_avr.cpp:startQueue,AVR_STEPPER_ISR"]}
{"id": "C12", "title": "AVR: forceStopAndNewPosition is immediate", "statement": "After forceStopAndNewPosition(p) returns no further step pulse is issued by queued commands, the queue is empty, getCurrentPosition() and targetPos() are p, and stay so until a new command is accepted; commands started later produce exactly their own pulses.", "quantifier": "every state of the queue and schedule in which it is called", "why_tests_cant": "can be called at any instant", "anchors": ["src/FastAccelStepper.cpp:forceStopAndNewPosition", "src/StepperISR_avr.cpp:forceStop"]}
{"id": "C13", "title": "Direction change delay before the first step", "statement": "With an (internal) direction pin and a configured direction change delay, the first step after any change of direction is preceded by a pause of at least the configured delay after the change of the direction pin.", "quantifier": "every sequence of commands, every configuration", "why_tests_cant": "all sequences/histories", "anchors": ["src/FastAccelStepper.cpp:FastAccelStepper::addQueueEntry", "src/FastAccelStepper.cpp:setDirectionPin"]}
{"id": "C14", "title": "Enable delay before the first step", "statement": "In auto enable mode, if outputs are disabled and a command is accepted, the outputs are enabled first and pauses of exactly the configured on-delay in total (or the direction delay if that is longer and direction changes) precede the command in the queue; all pauses and the command fit into an empty queue.", "quantifier": "every on-delay accepted by setDelayToEnable, every command", "why_tests_cant": "2^20 delays times all commands and states", "anchors": ["src/FastAccelStepper.cpp:FastAccelStepper::addQueueEntry", "src/FastAccelStepper.cpp:setDelayToEnable"]}
{"id": "C15", "title": "addQueueEntry return codes on stepper level", "statement": "FastAccelStepper::addQueueEntry returns TICKS_TOO_LOW for commands faster than getMaxSpeedInTicks(), NO_DIR_PIN_TO_TOGGLE for count down without direction pin, DIR_PIN_IS_BUSY if a shared direction pin is in use by another running stepper; in each of these cases nothing is enqueued and no pin is touched.", "quantifier": "every command, configuration and state", "why_tests_cant": "all states", "anchors": ["src/FastAccelStepper.cpp:FastAccelStepper::addQueueEntry", "src/FastAccelStepper.cpp:isDirPinBusy"]}
{"id": "C16", "title": "External direction pin handshake", "statement": "With an external direction pin, no step of a command with changed direction is executed before the external callback has confirmed the new pin state; the queue repeats the pause until then; if not two pauses fit, nothing is enqueued.", "quantifier": "every sequence of commands, callbacks answers and schedules", "why_tests_cant": "external confirmation can take arbitrarily long", "anchors": ["src/FastAccelStepper.cpp:FastAccelStepper::addQueueEntry,externalDirPinChangeCompletedIfNeeded", "src/StepperISR.cpp:addQueueEntry", "src/StepperISR_avr.cpp:AVR_STEPPER_ISR", "src/StepperISR_idf5_esp32_rmt.cpp:encode_commands", "src/StepperISR_idf4_esp32_rmt.cpp:apply_command", "src/StepperISR_idf4_esp32_mcpwm_pcnt.cpp:what_is_next"]}
{"id": "C17", "title": "Direction delay is clamped", "statement": "setDirectionPin(pin,_,us) with us=0 disables the delay; any other value results in a delay in ticks equal to the value clamped to MIN_DIR_DELAY_US..MAX_DIR_DELAY_US; the resulting ticks fit in 16 bit and are accepted by the queue as pause.", "quantifier": "all 65536 delays, all architectures", "why_tests_cant": "exhaustive per architecture incl. ones not testable on PC", "anchors": ["src/FastAccelStepper.cpp:setDirectionPin"]}
{"id": "C18", "title": "setDelayToEnable accepts exactly the valid range", "statement": "setDelayToEnable(us) returns DELAY_OK exactly if us=0 or the delay in ticks lies within MIN_CMD_TICKS..MAX_ON_DELAY_TICKS; else DELAY_TOO_LOW/DELAY_TOO_HIGH and the configuration is unchanged.", "quantifier": "all 2^32 delays", "why_tests_cant": "2^32 inputs, wrap around of the conversion", "anchors": ["src/FastAccelStepper.cpp:setDelayToEnable", "src/RampCalculator.h:US_TO_TICKS"]}
{"id": "C19", "title": "setDelayToDisable gives at least the minimum count", "statement": "setDelayToDisable(ms) yields 1 cycle for 0, at least 2 for any other value, and otherwise ms/DELAY_MS_BASE cycles (never 0, so auto disable always gets armed).", "quantifier": "all 65536 values, all architectures", "why_tests_cant": "exhaustive per architecture", "anchors": ["src/FastAccelStepper.cpp:setDelayToDisable,setAutoEnable"]}
{"id": "C20", "title": "Enable pin: last call wins", "statement": "After any sequence of setEnablePin calls an internal pin is never registered as both low and high active: the last call for that pin defines its polarity; enableOutputs()/disableOutputs() then drive each registered pin to its active/inactive level.", "quantifier": "every sequence of calls", "why_tests_cant": "all sequences", "anchors": ["src/FastAccelStepper.cpp:setEnablePin,enableOutputs,disableOutputs"]}
{"id": "C21", "title": "Auto disable never cuts a running motor", "statement": "The cyclic task drives an enable pin inactive only if no auto-enable stepper using this pin is running and the off-delay counter of every stepper using this pin has run down.", "quantifier": "every number of steppers, every pin sharing, every state", "why_tests_cant": "combinations of sharing and states", "anchors": ["src/FastAccelStepper.cpp:manageSteppers,agreeWithAutoDisable,needAutoDisable,disableOutputs"]}
{"id": "C22", "title": "Auto disable does happen after the off delay", "statement": "A stepper in auto enable mode which has stopped and gets no new command has its outputs disabled after exactly off_delay_count further cycles of the task, and not earlier, if nobody else uses the pin.", "quantifier": "every delay count, unbounded number of cycles", "why_tests_cant": "all delays/histories", "anchors": ["src/FastAccelStepper.cpp:manageSteppers,updateAutoDisable"]}
{"id": "C23", "title": "stepperConnectToPin never hands out a pin or slot twice", "statement": "After any sequence of stepperConnectToPin calls no two steppers have the same step pin, each stepper has its own queue, at most MAX_STEPPER steppers exist and a failing call changes nothing.", "quantifier": "every sequence of calls with any pins, all architectures", "why_tests_cant": "all sequences", "anchors": ["src/FastAccelStepper.cpp:stepperConnectToPin", "src/StepperISR_avr.cpp:queueNumForStepPin,isValidStepPin"]}
{"id": "C24", "title": "Shared direction pin is exclusively driven", "statement": "As long as one stepper's queue is running, no other stepper sharing the direction pin can enqueue commands while stopped; so two queues sharing a direction pin never run at the same time.", "quantifier": "every history over any number of steppers", "why_tests_cant": "interleavings over several steppers", "anchors": ["src/FastAccelStepper.cpp:isDirPinBusy,FastAccelStepper::addQueueEntry"]}
{"id": "C25", "title": "Speed setters accept exactly the valid range", "statement": "setSpeedInTicks/Us/Hz/MilliHz return 0 exactly if the resulting period is at least getMaxSpeedInTicks() and not the stopped-motor value (and the argument is in range), and then getSpeedInTicks() is the converted value; otherwise they return -1 and the set speed is unchanged.", "quantifier": "all 2^32 arguments, every max speed, all architectures", "why_tests_cant": "2^32 arguments", "anchors": ["src/FastAccelStepper.cpp:setSpeedInTicks,setSpeedInUs,setSpeedInHz,setSpeedInMilliHz", "src/RampGenerator.h:divForHz,divForMilliHz"]}
{"id": "C26", "title": "Hz conversion is correctly rounded", "statement": "For every frequency f the period used for setSpeedInHz(f) is TICKS_PER_S/f rounded to the nearest tick (half up).", "quantifier": "all f>0", "why_tests_cant": "2^32 arguments and overflow of the rounding", "anchors": ["src/RampGenerator.h:divForHz"]}
{"id": "C27", "title": "milliHz conversion is correctly rounded", "statement": "For every accepted milliHz value the period is 1000*TICKS_PER_S/f rounded to nearest; getSpeedInMilliHz() is 1000*TICKS_PER_S/ticks rounded to nearest.", "quantifier": "all arguments", "why_tests_cant": "overflow only at rare large arguments", "anchors": ["src/RampGenerator.h:divForMilliHz,getSpeedInMilliHz"]}
{"id": "C28", "title": "Microsecond conversion never wraps when accepted", "statement": "setSpeedInUs(us) is accepted only if us*ticks-per-us fits in 32 bit and then the set period is exactly that product.", "quantifier": "all 2^32 arguments", "why_tests_cant": "2^32 arguments", "anchors": ["src/FastAccelStepper.cpp:setSpeedInUs", "src/RampCalculator.h:US_TO_TICKS,TICKS_TO_US"]}
{"id": "C29", "title": "Sign and value of reported current speed", "statement": "getCurrentSpeedInMilliHz()/getCurrentSpeedInUs() are 0 while not moving, positive while counting up and negative while counting down, and consistent with the current period in ticks.", "quantifier": "every state of queue and ramp generator", "why_tests_cant": "all states incl. short lived ones", "anchors": ["src/FastAccelStepper.cpp:getCurrentSpeedInUs,getCurrentSpeedInMilliHz,getCurrentSpeedInTicks"]}
{"id": "C30", "title": "Log representation round trip error is bounded", "statement": "Converting any non-zero 32 bit value to the internal logarithmic representation and back gives the value within 1/512 relative error (plus rounding of 1).", "quantifier": "all 2^32-1 non-zero values", "why_tests_cant": "2^32 values", "anchors": ["src/PoorManFloat.cpp:pmfl_from,pmfl_to_u32,pmfl_to_u16"]}
{"id": "C31", "title": "Conversions are monotone", "statement": "The conversion of a 32 bit value to the logarithmic representation and the conversion back are both monotone.", "quantifier": "all pairs of values", "why_tests_cant": "2^64 pairs", "anchors": ["src/PoorManFloat.cpp:pmfl_from,pmfl_to_u32"]}
{"id": "C32", "title": "Ramp arithmetic never overflows 16 bit", "statement": "For every acceleration accepted by setAcceleration, every step count and every speed, none of the intermediate results of the period and ramp step calculation leaves the int16_t range (without linear acceleration), and with linear acceleration likewise.", "quantifier": "all accelerations 1..2^31-1, all steps, all periods, all linear acceleration steps", "why_tests_cant": "product of 32 bit domains", "anchors": ["src/RampCalculator.h:calculate_ticks,calculate_ramp_steps,update"]}
{"id": "C33", "title": "Ramp speed follows sqrt(2as)", "statement": "The period after s ramp steps with acceleration a is TICKS_PER_S/sqrt(2*a*s) within half a percent and one tick, for every acceleration and ramp step; with linear acceleration over s_h steps it is that of a motion with constant jerk (within one percent and one tick) up to s_h, and from there TICKS_PER_S/sqrt(2*a*(s-s_h/4)).", "quantifier": "all accelerations and steps", "why_tests_cant": "2^63 pairs", "anchors": ["src/RampCalculator.h:calculate_ticks"]}
{"id": "C34", "title": "Ramp commands are well formed", "statement": "Every command produced by the ramp generator is either 'no command', a pause (0 steps, ticks 1..65535), or 1..255 steps, never more steps than remain to the target (or to standstill when reversing).", "quantifier": "every ramp state, target, speed, acceleration", "why_tests_cant": "all states", "anchors": ["src/RampConstAcceleration.cpp:_getNextCommand"]}
{"id": "C35", "title": "Ramp commands are never rejected as too short", "statement": "Every command with steps produced by the ramp generator satisfies steps*ticks >= MIN_CMD_TICKS and ticks >= getMaxSpeedInTicks(), so a ramp is never aborted before the target is reached due to a queue error.", "quantifier": "every reachable ramp state", "why_tests_cant": "corner cases of speed/remaining steps", "anchors": ["src/RampConstAcceleration.cpp:_getNextCommand", "src/FastAccelStepper.cpp:fill_queue"]}
{"id": "C36", "title": "Slow steps: pauses conserve the step period", "statement": "A step period above 65535 ticks is split into one step command and pauses; the sum of the ticks of the step command and all following pauses is exactly the period, every piece is at most 65535 and at least 32767 ticks.", "quantifier": "every period up to 2^32-1", "why_tests_cant": "2^32 periods", "anchors": ["src/RampConstAcceleration.cpp:_getNextCommand"]}
{"id": "C37", "title": "A finished move ends exactly at the target", "statement": "When the ramp generator finishes on its own (not via force stop or error), the position after all queued commands equals the target position.", "quantifier": "every history of move commands, speed changes and schedules", "why_tests_cant": "all histories", "anchors": ["src/RampConstAcceleration.cpp:_getNextCommand", "src/RampGenerator.cpp:getNextCommand"]}
{"id": "C38", "title": "Moves go towards the target and do not overshoot without need", "statement": "Starting from standstill, steps are emitted in the (shorter, mod 2^32) direction towards the target; as long as the remaining distance is not below the braking distance, a command never passes the target.", "quantifier": "every state", "why_tests_cant": "all states", "anchors": ["src/RampConstAcceleration.cpp:_getNextCommand"]}
{"id": "C39", "title": "Configured speed limit is respected", "statement": "While moving, the step period is never below the set speed's period, unless the motor was already faster (then it is not made faster still).", "quantifier": "every ramp state and configuration", "why_tests_cant": "corner cases at short high speed moves", "anchors": ["src/RampConstAcceleration.cpp:_getNextCommand"]}
{"id": "C40", "title": "Accelerating never slows down, decelerating never speeds up", "statement": "In state ACCELERATE the step period does not increase, in DECELERATE/REVERSE it does not decrease, in COAST it stays the same (motor moving).", "quantifier": "every ramp state", "why_tests_cant": "all states", "anchors": ["src/RampConstAcceleration.cpp:_getNextCommand"]}
{"id": "C41", "title": "stopMove predicts the stop position", "statement": "After stopMove() the target position becomes the position at queue end plus/minus stepsToStop() in the current direction and continuous running ends.", "quantifier": "every running state", "why_tests_cant": "all states", "anchors": ["src/RampGenerator.cpp:getNextCommand", "src/RampGenerator.h:stepsToStop,initiateStop"]}
{"id": "C42", "title": "Move commands fail without effect if not configured", "statement": "move/moveTo/runForward/runBackward return MOVE_ERR_SPEED_IS_UNDEFINED / MOVE_ERR_ACCELERATION_IS_UNDEFINED (or NO_DIRECTION_PIN for move<0 without pin) and then change nothing.", "quantifier": "every state and argument", "why_tests_cant": "all states", "anchors": ["src/RampGenerator.cpp:startRun,moveTo,move", "src/FastAccelStepper.cpp:move", "src/RampCalculator.h:checkValidConfig"]}
{"id": "C43", "title": "Targets: moveTo replaces, move accumulates", "statement": "After any sequence of move/moveTo calls served by the task at arbitrary points, the target is what the sequence means: moveTo sets it, move adds to the latest desired end position (mod 2^32).", "quantifier": "every sequence of calls, every schedule of the cyclic task between them", "why_tests_cant": "interleavings of task and calls", "anchors": ["src/RampCalculator.h:setTargetPosition,setTargetRelativePosition", "src/RampGenerator.cpp:getNextCommand"]}
{"id": "C44", "title": "forceStop ends the ramp with no more commands", "statement": "After forceStop() the next task cycle adds no further command, the ramp becomes idle, and the target becomes the position at queue end.", "quantifier": "every state", "why_tests_cant": "all states", "anchors": ["src/FastAccelStepper.cpp:forceStop,fill_queue", "src/RampGenerator.cpp:getNextCommand"]}
{"id": "C45", "title": "Setting the position shifts the coordinate system only", "statement": "setCurrentPosition(p) makes getCurrentPosition() return p, and shifts the target and end position by the same amount so that the remaining way is unchanged; setPositionAfterCommandsCompleted(p) likewise for the end position.", "quantifier": "every state", "why_tests_cant": "all queue contents", "anchors": ["src/FastAccelStepper.cpp:setCurrentPosition,setPositionAfterCommandsCompleted", "src/RampGenerator.cpp:advanceTargetPosition"]}
{"id": "C46", "title": "moveTimed emits exactly the requested steps and time", "statement": "If moveTimed(steps,duration) succeeds, then the commands enqueued contain exactly |steps| steps in the requested direction and their total ticks are at most duration and off by less than |steps| ticks; with steps=0 they are exactly duration; *actual_duration reports the enqueued ticks.", "quantifier": "all steps and durations, every queue fill", "why_tests_cant": "2^48 arguments", "anchors": ["src/FastAccelStepper.cpp:moveTimed"]}
{"id": "C47", "title": "moveTimed rejects without partial effect", "statement": "If moveTimed returns TOO_LARGE or BUSY nothing has been enqueued; whenever its fit check passes all commands fit in the queue.", "quantifier": "all arguments and fill levels", "why_tests_cant": "2^48 arguments", "anchors": ["src/FastAccelStepper.cpp:moveTimed"]}
{"id": "C48", "title": "Sign of current acceleration", "statement": "getCurrentAcceleration() is 0 while idle or coasting, +a while speeding up forward or slowing down backward and -a in the mirrored cases.", "quantifier": "every ramp state", "why_tests_cant": "all states", "anchors": ["src/RampGenerator.cpp:getCurrentAcceleration"]}
{"id": "C49", "title": "The cyclic task keeps the queue legal and stops planning in time", "statement": "One task cycle adds only while the queue is not full and less than the planning time (or fewer than two commands) is queued, terminates, and leaves an inactive ramp's queue untouched.", "quantifier": "every state", "why_tests_cant": "all states; loop termination", "anchors": ["src/FastAccelStepper.cpp:fill_queue"]}
{"id": "C50", "title": "ESP32 RMT encoding preserves steps and time", "statement": "For every accepted command, the RMT symbols produced for it contain exactly the commanded number of pulses with exactly ticks between them and in total steps*ticks (pause: ticks); no symbol has a zero duration half (which would end the transmission).", "quantifier": "every command and chunk size", "why_tests_cant": "2^24 commands times chunk sizes, no hardware in tests", "anchors": ["src/StepperISR_idf5_esp32_rmt.cpp:encode_commands,ENTER_PAUSE", "src/StepperISR_idf4_esp32_rmt.cpp:apply_command"]}
{"id": "C51", "title": "ESP32 RMT direction changes only when no pulse is pending", "statement": "The RMT encoder changes the direction pin only if the symbols still being sent contain no step, and every command is encoded under its own direction.", "quantifier": "every command sequence", "why_tests_cant": "all sequences", "anchors": ["src/StepperISR_idf5_esp32_rmt.cpp:encode_commands", "src/StepperISR_idf4_esp32_rmt.cpp:apply_command"]}
{"id": "C52", "title": "SAM Due: every pulse has the commanded direction", "statement": "On SAM Due the direction pin has the commanded level whenever a pulse of a command is emitted.", "quantifier": "every command sequence", "why_tests_cant": "all sequences", "anchors": ["src/StepperISR_due.cpp:DUE_STEPPER_ISR,PWM_Handler,startQueue"]}
{"id": "C53", "title": "isRunning covers all pending work", "statement": "isRunning() is false only if the queue is stopped, empty and the ramp generator is idle.", "quantifier": "every state", "why_tests_cant": "all states", "anchors": ["src/FastAccelStepper.cpp:isRunning"]}
{"id": "C54", "title": "Continuous run keeps running", "statement": "After runForward()/runBackward() the ramp generator never becomes idle on its own and, once any reversal is done, emits steps only in the requested direction.", "quantifier": "every number of cycles", "why_tests_cant": "unbounded runs", "anchors": ["src/RampConstAcceleration.cpp:_getNextCommand", "src/RampGenerator.cpp:startRun"]}
{"id": "C55", "title": "Forward planning time conversion", "statement": "setForwardPlanningTimeInMs(ms) sets exactly ms milliseconds in ticks for all arguments without overflow.", "quantifier": "all 256 values, all architectures", "why_tests_cant": "per architecture", "anchors": ["src/FastAccelStepper.h:setForwardPlanningTimeInMs"]}
{"id": "C56", "title": "stepsToStop is 0 at standstill", "statement": "When a move is finished and the motor is stopped, stepsToStop() is 0 (documented: number of steps to come to standstill).", "quantifier": "every finished move", "why_tests_cant": "depends on uninitialised memory", "anchors": ["src/RampConstAcceleration.cpp:_getNextCommand", "src/FastAccelStepper.cpp:fill_queue"]}
{"id": "C57", "title": "Every move finishes", "statement": "For every target, from every ramp state, if no further calls are made the ramp generator becomes idle after finitely many commands.", "quantifier": "every ramp state and target", "why_tests_cant": "liveness over unbounded runs", "anchors": ["src/RampConstAcceleration.cpp:_getNextCommand"]}
{"id": "C58", "title": "Relative move from standstill moves exactly that far", "statement": "If the motor stands still, move(m) results in a target exactly m steps away from the current position (mod 2^32).", "quantifier": "every history leading to standstill, every m", "why_tests_cant": "Depends on the whole history of ramps, single steps and raw commands before the call.", "anchors": ["src/RampGenerator.cpp: RampGenerator::move, getNextCommand", "src/FastAccelStepper.cpp: FastAccelStepper::move"]}
{"id": "C59", "title": "A run command at standstill starts the motor", "statement": "If the motor stands still and runForward()/runBackward() returns MOVE_OK, the motor starts to move: the next task cycle enqueues a command with steps in the requested direction.", "quantifier": "every history leading to standstill", "why_tests_cant": "Depends on flags left behind by any earlier call (force stop, stop, ...).", "anchors": ["src/RampGenerator.cpp: RampGenerator::startRun, getNextCommand", "src/RampGenerator.h: forceStop"]}
{"id": "C60", "title": "More ramp steps never give a slower step", "statement": "For every acceleration, the period after s+1 ramp steps is not longer than the period after s ramp steps.", "quantifier": "all accelerations, linear acceleration settings and pairs of ramp steps", "why_tests_cant": "2^64 pairs for every acceleration", "anchors": ["src/RampCalculator.h:calculate_ticks"]}
{"id": "C61", "title": "Ramp length follows v^2/(2a)", "statement": "The number of ramp steps calculated for a period (steps needed to reach this speed, and to stop from it) is (TICKS_PER_S/ticks)^2/(2a) within one percent and one step, for every acceleration and period without linear acceleration, as long as the number fits in 32 bit.", "quantifier": "all accelerations and periods", "why_tests_cant": "2^63 pairs", "anchors": ["src/RampCalculator.h:calculate_ramp_steps", "src/RampGenerator.cpp:getNextCommand"]}
{"id": "C62", "title": "The result of addQueueEntry tells whether the command was queued", "statement": "If addQueueEntry() returns OK, the given command has been queued exactly once, after the enable and direction pauses it needs; if it returns anything else, the command has not been queued, and at most pauses without steps have been.", "quantifier": "every command, stepper configuration, queue fill and hardware progress", "why_tests_cant": "all combinations of pending pauses, delays and free slots", "anchors": ["src/FastAccelStepper.cpp:FastAccelStepper::addQueueEntry", "src/StepperISR.cpp:StepperQueue::addQueueEntry"]}
{"id": "C63", "title": "ESP32 RMT: everything accepted is sent and then the motor stops", "statement": "On the RMT backends, once the queue has been started, every accepted command is completely sent, nothing else except pauses is sent, and after the end of the transmission the stepper reports that it is not running.", "quantifier": "every schedule of requests of the peripheral and phases of addQueueEntry calls", "why_tests_cant": "all interleavings of the driver callback with addQueueEntry; no hardware in tests", "anchors": ["src/StepperISR_idf5_esp32_rmt.cpp:encode_commands,queue_done,startQueue_rmt", "src/StepperISR_idf4_esp32_rmt.cpp:apply_command,startQueue_rmt,tx_intr_handler", "src/StepperISR.cpp:StepperQueue::addQueueEntry"]}
{"id": "C64", "title": "SAM Due: exactly one pulse per accepted step, and everything accepted is executed", "statement": "On SAM Due the pulses emitted are exactly the steps of the accepted commands in their order: none is lost, doubled or emitted without a command. Once the queue is started all accepted commands are executed and then the stepper reports that it is not running.", "quantifier": "every schedule of pulses, period interrupts and phases of addQueueEntry calls", "why_tests_cant": "all interleavings of two interrupts with addQueueEntry; no hardware in tests", "anchors": ["src/StepperISR_due.cpp:DUE_STEPPER_ISR,PWM_Handler,startQueue,forceStop", "src/StepperISR.cpp:StepperQueue::addQueueEntry"]}
{"id": "C65", "title": "forwardStep() and backwardStep() make one single step", "statement": "forwardStep()/backwardStep() on a stepper which is not moving make exactly one step in the requested direction, the position after completion changes by this step, and a moving stepper, or backwardStep() without direction pin, ignores the call.", "quantifier": "every state of the stepper, every architecture, every answer of pin callbacks", "why_tests_cant": "depends on speed limit, direction and enable delays and the queue state in all combinations", "anchors": ["src/FastAccelStepper.cpp:forwardStep,backwardStep", "src/FastAccelStepper.h:forwardStep"]}
{"id": "C66", "title": "moveByAcceleration() controls the speed by the acceleration", "statement": "moveByAcceleration(a) with a > 0 accelerates towards the positive maximum speed, with a = 0 keeps the current speed, with a < 0 accelerates towards the negative maximum speed if reversing is allowed and else decelerates to a stop. The maximum speed set before is kept, and an error is returned if it is not set.", "quantifier": "every history of calls and services, every acceleration value", "why_tests_cant": "depends on the interleaving with the cyclic task and on the parameter hand over", "anchors": ["src/FastAccelStepper.cpp:moveByAcceleration", "src/FastAccelStepper.h:moveByAcceleration"]}
{"id": "C67", "title": "The speed limit reported is the one for the number of steppers and is accepted", "statement": "After connecting n steppers each one accepts the speed promised for n steppers; the limit reported in ticks, microseconds, Hz and mHz is the same limit, and a speed set to the reported limit is accepted.", "quantifier": "every connect history, every architecture, every limit", "why_tests_cant": "all connect histories and all values of the limit in four units with 32 bit overflow", "anchors": ["src/FastAccelStepper.h:getMaxSpeedInUs,getMaxSpeedInTicks,getMaxSpeedInHz,getMaxSpeedInMilliHz", "src/StepperISR.h:adjustSpeedToStepperCount", "README.md"]}
{"id": "C68", "title": "The period reported for the end of the queue", "statement": "getPeriodInTicksAfterCommandsCompleted() and getPeriodInUsAfterCommandsCompleted() give the time between the latest queued step of the ramp and its successor, and 0 if the ramp is idle.", "quantifier": "every reachable state of the ramp generator and every service", "why_tests_cant": "depends on the period split into pauses over several services", "anchors": ["src/FastAccelStepper.cpp:getPeriodInUsAfterCommandsCompleted,getPeriodInTicksAfterCommandsCompleted"]}
{"id": "C69", "title": "New parameters are used after a move command or applySpeedAcceleration(), and not before", "statement": "New values of speed, acceleration, linear acceleration and jump start have no effect before move(), moveTo(), runForward(), runBackward(), applySpeedAcceleration() or moveByAcceleration() is called; in particular not by stopMove(). After such a call the ramp is calculated with the new values.", "quantifier": "every interleaving of set calls, stop calls, services by the task and hardware progress", "why_tests_cant": "hyperproperty comparing two runs over all interleavings", "anchors": ["src/FastAccelStepper.h:setSpeedInUs,setAcceleration,setLinearAcceleration", "src/RampGenerator.cpp:applySpeedAcceleration,getNextCommand", "src/RampCalculator.h:ramp_parameters_s"]}
{"id": "C70", "title": "keepRunning() makes the motor run on in its current direction", "statement": "After keepRunning() during a move the motor runs continuously in its current direction until it is stopped.", "quantifier": "every history before and after the call", "why_tests_cant": "unbounded run; all histories", "anchors": ["src/FastAccelStepper.h:keepRunning", "src/RampGenerator.h:setKeepRunning", "src/RampCalculator.h:setTargetPosition"]}
{"id": "C71", "title": "The position at the end of the queue counts the queued steps", "statement": "getPositionAfterCommandsCompleted() changes by exactly the signed sum of the steps of the commands put into the queue, by addQueueEntry(), moveTimed() and the cyclic task, whatever their result.", "quantifier": "every state, command, schedule and result code", "why_tests_cant": "all results, also partial insertion; 32 bit wrap", "anchors": ["src/FastAccelStepper.cpp:getPositionAfterCommandsCompleted,moveTimed,addQueueEntry,fill_queue"]}
{"id": "C72", "title": "ESP32 MCPWM/PCNT: the output is exactly the periods of the accepted commands", "statement": "With the MCPWM/PCNT driver the step output consists exactly of the periods of the accepted commands in their order: for a command with n steps n periods of its ticks, each with one pulse, for a pause one period of its ticks without pulse. After the last command the output stops, and nothing accepted is lost.", "quantifier": "every sequence of commands and every interleaving of timer events, interrupt services and the phases of addQueueEntry()", "why_tests_cant": "the driver corrects a hardware counter on the fly; all interleavings of interrupts, pulses and queue insertion", "anchors": ["src/StepperISR_idf4_esp32_mcpwm_pcnt.cpp:what_is_next,apply_command,prepare_for_next_command,init_stop,startQueue_mcpwm_pcnt,isReadyForCommands_mcpwm_pcnt", "src/StepperISR.cpp:addQueueEntry"]}
{"id": "C73", "title": "ESP32 MCPWM/PCNT: every pulse has the commanded direction", "statement": "With the MCPWM/PCNT driver the direction pin has at every step pulse the level of the direction of the command the pulse belongs to.", "quantifier": "every sequence of commands and every interleaving of timer events, interrupt services and the phases of addQueueEntry()", "why_tests_cant": "the pin is toggled relative to its level by interrupts; all histories", "anchors": ["src/StepperISR_idf4_esp32_mcpwm_pcnt.cpp:apply_command", "src/StepperISR.cpp:addQueueEntry"]}
{"id": "C74", "title": "ESP32 MCPWM/PCNT: no pulse is lost or counted twice while a command is taken over", "statement": "A step pulse which is output while the driver takes over the next command is counted exactly once, at whatever moment of the take over it occurs.", "quantifier": "every number of steps, counter state and every point of time of the pulse relative to the register accesses", "why_tests_cant": "race between hardware and single register accesses", "anchors": ["src/StepperISR_idf4_esp32_mcpwm_pcnt.cpp:apply_command"]}
{"id": "C75", "title": "ESP32 MCPWM/PCNT: forceStopAndNewPosition is immediate", "statement": "After forceStopAndNewPosition() at most the period just beginning is completed, the queue is empty and the position is the new one, until the next command is given. Commands given afterwards are executed as if the stepper was new.", "quantifier": "every state in which the call is done and every continuation", "why_tests_cant": "all states of hardware and queue, all continuations", "anchors": ["src/StepperISR_idf4_esp32_mcpwm_pcnt.cpp:forceStop_mcpwm_pcnt,init_stop,what_is_next", "src/FastAccelStepper.cpp:forceStopAndNewPosition"]}
{"id": "C76", "title": "ESP32 MCPWM/PCNT: getCurrentPosition() counts every pulse output", "statement": "With the MCPWM/PCNT driver getCurrentPosition() equals the position at the start plus the signed number of step pulses output so far, also if it is called while the driver is switching from one command to the next.", "quantifier": "every sequence of commands, every interleaving of timer events, interrupts and the phases of addQueueEntry(), every moment of the call and every interruption between its two readings of the pulse counter", "why_tests_cant": "race between the reader, the pulse counter and two interrupts; all histories", "anchors": ["src/StepperISR.cpp:getCurrentPosition", "src/StepperISR_idf4_esp32_mcpwm_pcnt.cpp:_getPerformedPulses_mcpwm_pcnt,next_command"]}
{"id": "C77", "title": "ESP32 RMT: getCurrentPosition() follows the pulses sent", "statement": "With the RMT drivers getCurrentPosition() is at every moment the start position plus the signed steps of the commands sent so far; at standstill it is exact.", "quantifier": "every driver version, every sequence of commands, every interleaving of the requests of the peripheral and the phases of addQueueEntry(), every moment of the call and every interruption between its two critical sections", "why_tests_cant": "race between the reader and the encoder, which modifies and removes the commands; all histories", "anchors": ["src/StepperISR.cpp:getCurrentPosition", "src/StepperISR_idf5_esp32_rmt.cpp:_getPerformedPulses_rmt,encode_commands", "src/StepperISR_idf4_esp32_rmt.cpp:apply_command", "src/StepperISR_idf4_esp32c3_rmt.cpp:apply_command"]}
{"id": "C78", "title": "ESP32 free pulse counter shows the angle of the motor", "statement": "After attachToPulseCounter() with the limits -N and N, the value of readPulseCounter(), plus N if it is negative, is at every moment the signed number of steps made since then (or since clearPulseCounter()) modulo N; with the limits 0 it is the signed number of steps as int16_t. Without attached counter 0 is read, and a failed attachment changes nothing.", "quantifier": "all N, all sequences of steps and direction changes, both polarities of the direction pin, all schedules of the MCPWM/PCNT and RMT drivers, attachment at any time", "why_tests_cant": "the number and order of steps in both directions around the limits is unbounded", "anchors": ["src/FastAccelStepper_idf4_esp32_pcnt.cpp:attachToPulseCounter,clearPulseCounter,readPulseCounter", "src/FastAccelStepper_idf5_esp32_pcnt.cpp", "src/FastAccelStepper.h:747-800"]}
{"id": "C79", "title": "A move ends with the motor at the target", "statement": "If a stepper at standstill gets a speed, an acceleration and moveTo(p), and the cyclic task serves it until the ramp is idle, then the pulses output by the driver for the commands queued, each counted with the level of the direction pin at the pulse, add up to the way from the start position to p (modulo 2^32).", "quantifier": "every start state, target, speed of at most one pulse per L ticks, acceleration and linear acceleration with which the speed stays below one pulse per tick, every schedule of task cycles, refusals and hardware progress, and every schedule of the driver within the restrictions of C08/C09, C72/C73, C50, C52/C64", "why_tests_cant": "unbounded distances, histories and interleavings of task, call and interrupt", "anchors": ["src/FastAccelStepper.cpp:fill_queue,moveTo", "src/RampConstAcceleration.cpp:_getNextCommand", "src/StepperISR_avr.cpp", "src/StepperISR_idf4_esp32_mcpwm_pcnt.cpp", "src/StepperISR_idf5_esp32_rmt.cpp", "src/StepperISR_due.cpp"]}
{"id": "C80", "title": "A move command takes effect wherever the task interrupts it", "statement": "moveTo(p), move(m), runForward() and runBackward() may be interrupted by the cyclic task at any point of the call, and the task may serve the ramp any number of times there. When the call returns success, the ramp heads for p (the former target plus m; without end in the given direction): it is active and works towards it, or it is idle and all steps to it are queued, and this stays so whatever the task does afterwards.", "quantifier": "every history before the call, every point of interruption, any number of task cycles at each of them, every environment of each cycle", "why_tests_cant": "the interruptions may come at every point and in every combination, with any state of the ramp", "anchors": ["src/RampGenerator.cpp:moveTo,move,startRun,_startMove,getNextCommand,afterCommandEnqueued", "src/RampCalculator.h:setTargetPosition,setTargetRelativePosition,setRunning", "src/RampConstAcceleration.h:ramp_ro_s,startRampIfNotRunning", "src/FastAccelStepper.cpp:fill_queue"]}
{"id": "C81", "title": "On AVR punctual commands give exact pulses, however late the interrupts", "statement": "If, while the motor is running, every command is queued before the last step of the commands queued before (at the time which follows from the documented durations), then every pulse comes exactly at its documented time with its documented direction and the position is exact, however late the interrupts are served. ticksInQueue() is exact in real time: the commands queued end at the next pulse plus the rest of the command in process plus ticksInQueue().", "quantifier": "every list of commands, every schedule of calls and interrupts with times in which no interrupt is served before its compare event", "why_tests_cant": "unbounded schedules of calls, interrupts and latencies", "anchors": ["src/StepperISR_avr.cpp", "src/StepperISR.cpp:addQueueEntry,ticksInQueue"]}
{"id": "C82", "title": "The cyclic task keeps the queue supplied", "statement": "If nothing but a full queue hinders the cyclic task, then at the end of each cycle the ramp is finished, or the queue has no more room, or at least two commands are queued and the commands behind the one being executed at the begin of the cycle last at least the forward planning time. So on AVR, cycles of at most the forward planning time less one period keep the motor supplied without any gap in the pulses (with C81).", "quantifier": "every history of calls and cycles before, every state of ramp and queue, every hardware progress during the cycle", "why_tests_cant": "all ramps, queue contents and interleavings with the hardware", "anchors": ["src/FastAccelStepper.cpp:fill_queue,addQueueEntry", "src/RampGenerator.cpp:getNextCommand", "src/StepperISR.cpp:ticksInQueue,addQueueEntry"]}
{"id": "C83", "title": "Steppers on the same AVR timer do not disturb each other", "statement": "On AVR all steppers share one timer. Whatever is done with the other steppers (connect, start, force stop) and whenever: every stepper makes exactly the pulses, has the position and reports the state, which it would have alone with its own commands and its own step interrupts.", "quantifier": "any number of steppers, every schedule of step interrupts, calls by the application and cycles of the task, with interruption of every register operation between load and store", "why_tests_cant": "the interruption has to hit a window of a few instructions; all combinations of steppers, states and interruption points", "anchors": ["src/StepperISR_avr.cpp:Stepper_One,Stepper_Zero,Stepper_Disconnect,EnableCompareInterrupt,DisableCompareInterrupt,AVR_INIT,AVR_STEPPER_ISR,AVR_START_QUEUE,FORCE_STOP"]}
{"id": "C84", "title": "On AVR the cyclic task is neither lost nor nested", "statement": "On AVR, the cyclic task (a timer overflow interrupt that enables interrupts again) is never entered while it is still running, and once a stepper is connected, it is at any time either running or enabled to be started by the next timer overflow, wherever connect, start and force stop are interrupted.", "quantifier": "every schedule of step interrupts, task cycles and calls, with interruption of every register operation between load and store", "why_tests_cant": "all interruption points in all combinations", "anchors": ["src/StepperISR_avr.cpp:AVR_CYCLIC_ISR,EnableOverflowInterrupt,DisableOverflowInterrupt,AVR_INIT"]}
{"id": "C85", "title": "stepsToStop() is the distance in which the motor can stop", "statement": "At any time, the number of steps reported by stepsToStop(), or the steps made in 2 ms if this is more, is at least the physical braking distance v²/(2a) of the speed at the end of the queue, up to one percent: the library never lets the motor run faster than it can brake with the configured acceleration in the steps it announces.", "quantifier": "every history of moves, stops, reversals and task cycles with constant speed and acceleration settings, every speed and acceleration", "why_tests_cant": "the planner's count of ramp steps is changed by every command it plans, with different roundings; only an invariant over all histories shows that it never falls behind the speed", "anchors": ["src/RampCalculator.h:calculate_ticks,calculate_ramp_steps", "src/RampConstAcceleration.cpp:_getNextCommand", "src/RampGenerator.h:stepsToStop"]}
{"id": "C86", "title": "A move stays between start and target and below the trapezoidal speed profile", "statement": "In a move from standstill the end of the queue never leaves the way between start and target, and at each point the braking distance v²/(2a) of the speed is at most the way gone from the start and at most the way to go to the target (or the steps made in 2 ms), up to one percent.", "quantifier": "every distance, speed and acceleration setting, every number of task services and fill levels", "why_tests_cant": "all distances times all speeds and accelerations; overshoot by one step occurs only for rare roundings", "anchors": ["src/RampConstAcceleration.cpp:_getNextCommand", "src/RampGenerator.cpp:startMove,moveTo", "src/RampCalculator.h:calculate_ticks,calculate_ramp_steps"]}
{"id": "C87", "title": "A move faster than the minimum command time arrives too", "statement": "A move with a set speed whose step period is shorter than the minimum duration of one queue command (less than 200 µs on ESP32) arrives at its target: no command of the ramp is rejected by the queue, the ramp does not go idle before the target, and it goes idle after finitely many unhindered task cycles.", "quantifier": "every set speed below the minimum command time, every acceleration, every distance, every interleaving of task cycles with hardware progress and refusals", "why_tests_cant": "whether a command of too few steps is emitted depends on the exact combination of distance, speed and acceleration; for one acceleration a handful of distances in a million fail", "anchors": ["src/RampConstAcceleration.cpp:_getNextCommand", "src/StepperISR.cpp:addQueueEntry", "src/FastAccelStepper.cpp:fill_queue", "src/RampGenerator.cpp:moveTo"]}
{"id": "C88", "title": "SAM Due: pulses at the documented times", "statement": "On the SAM Due the pulses come exactly at the documented times: the steps of a command are ticks apart, with a wait of ticks after the last one; a command without steps is a pause of ticks. After a stop the next pulse is never earlier than the documented end of the preceding command.", "quantifier": "every sequence of commands, every schedule of calls of addQueueEntry relative to the PWM periods, every interrupt latency, every PWM interrupt of other steppers", "why_tests_cant": "the peripheral buffers the next period and keeps its interrupt flag; whether a pause is kept, doubled or lost depends on the speed before it and on the moment of the call relative to the last period", "anchors": ["src/StepperISR_due.cpp:PWM_Handler,DUE_STEPPER_ISR,startQueue", "src/fas_arch/common.h:stepper_command_s"]}
{"id": "C89", "title": "SAM Due: several steppers do not disturb each other", "statement": "On the SAM Due each connected stepper has a PWM channel of its own; a pin whose channel is in use is refused. Connecting, detaching or reattaching one stepper, and the interrupts of one stepper, do not change what another stepper does: same pulses, same queue as if it were alone. A stepper detached from its pin and reattached continues to work.", "quantifier": "every order of connections to any pins, every schedule of commands, interrupts with any combination of flags, detaching and reattaching, for every stepper", "why_tests_cant": "the PWM interrupt flags and the interrupt mask are shared by all channels; interference needs a particular state of one stepper at the moment another one is connected", "anchors": ["src/StepperISR_due.cpp:pinToChannel,init,connect,disconnect,isValidStepPin,PWM_Handler", "src/FastAccelStepper.cpp:stepperConnectToPin,detachFromPin,reAttachToPin"]}
{"id": "C90", "title": "AVR: a move in real time", "statement": "While a move is executed, the cyclic task and the step interrupt work on the same queue. If the task comes in time, compared to the forward planning time and to the duration of a full queue, then the pulses come at the documented times of the queued commands without any gap from the first to the last, the motor does not stop before the ramp is finished, and when the motor has stopped it has moved to the target.", "quantifier": "every speed, acceleration and target, every moment of each task cycle, every interleaving of the calls of the task with the step interrupts, every interrupt latency within the given limits", "why_tests_cant": "whether the queue runs dry depends on the relative timing of the task and of the step interrupt over the whole move; a simulation runs one schedule", "anchors": ["src/FastAccelStepper.cpp:fill_queue", "src/StepperISR.cpp:addQueueEntry,ticksInQueue,hasTicksInQueue", "src/StepperISR_avr.cpp:AVR_STEPPER_ISR,startQueue"]}
{"id": "C91", "title": "ESP32: several steppers on the MCPWM/PCNT driver", "statement": "On an ESP32 or ESP32S3 with any number of steppers on the MCPWM/PCNT driver, connected to any pins in any order, each stepper has its own timer, pulse counter and step pin, and gets exactly their interrupts. Each stepper behaves as if it were alone: the output at its step pin is exactly the periods of its own commands with the commanded direction, whatever the other steppers do.", "quantifier": "every set of steppers and pins, every order of connecting, detaching and reattaching, every interleaving of API calls, timer events and interrupts of all steppers", "why_tests_cant": "the drivers share interrupt enable and control registers; whether one stepper disturbs another depends on the interleaving of read-modify-write sequences of calls and interrupts", "anchors": ["src/StepperISR_idf4_esp32_mcpwm_pcnt.cpp:channel2mapping,init_mcpwm_pcnt,connect_mcpwm_pcnt,mcpwm0_isr_service,mcpwm1_isr_service,isr_pcnt_counter_clear", "src/StepperISR_esp32.cpp:fas_init_engine", "src/FastAccelStepper_idf4_esp32_pcnt.cpp:attachToPulseCounter"]}
{"id": "C92", "title": "ESP32 RMT driver: what the channel really sends", "statement": "On the RMT drivers of the ESP32/ESP32S2 and of the C3/S3 with IDF 4, the levels on the step pin are the parts written by the driver, each exactly once and in order, however API calls, the words sent by the peripheral and the interrupts interleave, as long as the interrupts are served before the part being sent is finished. So the accepted commands are output with their documented pulses and directions, the transmission ends and the motor stops. After a force stop no further pulse is sent.", "quantifier": "every sequence of commands, every interleaving of API calls, words sent and interrupt latencies", "why_tests_cant": "whether a part of the memory is refilled while, before or after it is sent depends on the latency of the interrupts relative to the transmission; a test sees a few of these interleavings", "anchors": ["src/StepperISR_idf4_esp32_rmt.cpp:stop_rmt,apply_command,PROCESS_CHANNEL,tx_intr_handler,disconnect_rmt,startQueue_rmt,forceStop_rmt", "src/StepperISR_idf4_esp32c3_rmt.cpp:stop_rmt,apply_command,PROCESS_CHANNEL,tx_intr_handler,disconnect_rmt,startQueue_rmt,forceStop_rmt", "src/StepperISR_idf4_esp32s3_rmt.cpp"]}
{"id": "C93", "title": "ESP32: several steppers on the RMT drivers", "statement": "On an ESP32, ESP32S2, ESP32S3 or ESP32C3 with IDF 4 and any number of steppers on the RMT driver, connected to any pins in any order, each stepper has its own RMT channel and step pin, and its interrupts are processed for its own queue. Each stepper behaves as if it were alone: its queue and the pulses at its step pin are those of its own commands, whatever is done with the other steppers.", "quantifier": "every set of steppers and pins, every order of connecting, detaching and reattaching, every interleaving of API calls, words sent and interrupts of all steppers, every initial content of the RMT memory", "why_tests_cant": "all channels share one interrupt service and one interrupt enable register; whether one stepper disturbs another depends on the interleaving of read-modify-write sequences", "anchors": ["src/StepperISR_esp32.cpp:init,connect,disconnect,startQueue", "src/StepperISR_idf4_esp32_rmt.cpp:init_rmt,connect_rmt,disconnect_rmt,tx_intr_handler", "src/StepperISR_idf4_esp32c3_rmt.cpp:init_rmt,connect_rmt,disconnect_rmt,tx_intr_handler,enable_rmt_interrupts", "src/StepperISR_idf4_esp32s3_rmt.cpp", "src/fas_arch/common_esp32_idf4.h"]}
{"id": "C94", "title": "Control calls take effect wherever the task interrupts them", "statement": "stopMove(), forceStop(), keepRunning(), applySpeedAcceleration(), forceStopAndNewPosition(), setCurrentPosition() and the setters for speed and acceleration have the effect documented, also if the cyclic task interrupts the call at any point: the result is the one of a call without interruption. In particular the ramp is stopping after stopMove(), adds no more commands after forceStop(), runs on after keepRunning(), uses the new settings after applySpeedAcceleration(), and after forceStopAndNewPosition(p) the stepper is idle at p.", "quantifier": "every reachable state, every point of interruption, every number of task cycles, every progress of the hardware, every content of uninitialised memory", "why_tests_cant": "the effect depends on the points of the call at which the task interrupts it, and on what the task does there; the bits written share a byte with bits written by the task", "anchors": ["src/FastAccelStepper.cpp:stopMove,forceStop,forceStopAndNewPosition,keepRunning,applySpeedAcceleration,setCurrentPosition,fill_queue", "src/RampGenerator.cpp:applySpeedAcceleration,setAcceleration,getNextCommand", "src/RampConstAcceleration.h:ramp_ro_s,stopRamp", "src/RampCalculator.h:ramp_parameters_s"]}
{"id": "C95", "title": "AVR: values of 32 bits are read and written consistently", "statement": "On the 8 bit AVR processors the cyclic task may come between two bytes of a 32 bit variable. A getter (targetPos(), getPositionAfterCommandsCompleted(), getSpeedInTicks(), getAcceleration(), getPeriodInTicksAfterCommandsCompleted()) returns a value, which the quantity has at one moment of the call, and setJumpStart(n) gives a move either the former setting or n.", "quantifier": "every reachable state, every order of the bytes, every interruption before, between and after the bytes with any number of task cycles and any hardware progress", "why_tests_cant": "a test on a PC or a 32 bit processor cannot split the access, and on AVR the interrupt would have to come between two given instructions", "anchors": ["src/FastAccelStepper.h:targetPos", "src/FastAccelStepper.cpp:getPositionAfterCommandsCompleted,getPeriodInTicksAfterCommandsCompleted", "src/RampGenerator.h:targetPosition,getSpeedInTicks,getAcceleration", "src/RampCalculator.h:setJumpStart", "src/StepperISR_avr.cpp:AVR_CYCLIC_ISR"]}
{"id": "C96", "title": "Queries of the queue while it is processed", "statement": "ticksInQueue(), hasTicksInQueue() and the realtime speed read the queued commands with interrupts enabled. If commands are executed, completed or dropped during the call, or new ones are queued, ticksInQueue() returns a value between the planned time at the end of the call, without the new commands, and the planned time at its begin; hasTicksInQueue(n) is true only if n ticks were planned at the begin, and false only if less than n are planned at the end, without the new commands; the realtime speed is the one at the begin of the call.", "quantifier": "every queue content, every interleaving of the call's accesses with interrupts and other tasks", "why_tests_cant": "all interleavings and contents", "anchors": ["src/StepperISR.cpp:ticksInQueue,hasTicksInQueue,getActualTicksWithDirection"]}
{"id": "C97", "title": "AVR: changing a running command does not disturb the pulse train", "statement": "On AVR, while the motor is moving, the application may change target, speed and acceleration, let the motor run in either direction, and stop it, at any time and as often as it likes. If the cyclic task is not delayed beyond the forward planning time and the duration of a full queue, the queue never runs dry: the pulses follow one another at the planned times from the start on, the motor runs as long as the ramp is active, and getPositionAfterCommandsCompleted() counts exactly the steps made when it has stopped. A motor told to run (runForward(), runBackward()) never stops, whatever speeds and accelerations are set.", "quantifier": "every sequence of calls at every time between task cycles, every jitter of task and interrupts within the given limits, every reachable state at rest, all commands queued over any number of cycles", "why_tests_cant": "all sequences and times of calls, together with all delays of task and interrupts, over runs of unlimited length", "anchors": ["src/FastAccelStepper.cpp:fill_queue,addQueueEntry", "src/StepperISR_avr.cpp:AVR_STEPPER_ISR,startQueue", "src/RampGenerator.cpp:getNextCommand,moveTo,startRun,applySpeedAcceleration"]}
{"id": "C98", "title": "A moving motor which gets a new target arrives there", "statement": "While the motor is moving - in either direction, accelerating, braking, reversing, running continuously, or stopping after stopMove() - the application sets a new speed and acceleration and calls moveTo(p). Then the task makes the ramp brake and reverse if necessary, and end with getPositionAfterCommandsCompleted() == p after finitely many task cycles; the commands put into the queue from the call on lead exactly from the former end of the queue to p, and nothing in between has undefined behaviour. With move(m) it arrives likewise m steps beyond the former target, or, if it runs continuously, beyond the end of the queue; several calls of move() add up, whether the task has served them in between or not.", "quantifier": "every history of calls and task cycles before, every target, speed and acceleration, every behaviour of queue, hardware and other steppers afterwards", "why_tests_cant": "all states of a moving ramp, all targets relative to them and all schedules of the task", "anchors": ["src/RampGenerator.cpp:moveTo,getNextCommand", "src/RampConstAcceleration.cpp:getNextCommand", "src/FastAccelStepper.cpp:fill_queue"]}
{"id": "C99", "title": "stopMove() stops the motor exactly stepsToStop() steps beyond the end of the queue", "statement": "While the motor is moving - in either direction, accelerating, coasting, braking, reversing, running continuously or stopping already - the application calls stopMove(). Then the ramp ends after finitely many task cycles, and it ends exactly stepsToStop() steps beyond the commands which are in the queue at the call, in the direction of the last of them: getPositionAfterCommandsCompleted() is this position, and the commands put into the queue from the call on lead there. If the application has applied a change of the acceleration just before, which the task has not taken over yet, the steps to stop are those with the new acceleration. If the task has not queued any command of the movement yet, the motor does not move. Nothing in between has undefined behaviour.", "quantifier": "every history of settings, moves, stops, position changes and task cycles before the call, every behaviour of queue, hardware and other steppers afterwards", "why_tests_cant": "all states of a moving ramp and all schedules of the task; the target is computed anew in each service from the remaining braking distance, so one command with wrong bookkeeping shifts the stop position", "anchors": ["src/FastAccelStepper.cpp:stopMove,fill_queue", "src/RampGenerator.h:initiateStop,stepsToStop", "src/RampGenerator.cpp:getNextCommand", "src/RampConstAcceleration.cpp:getNextCommand"]}
{"id": "C100", "title": "The pulses of a motor which is stopped or redirected on its way end at the promised position", "statement": "The motor moves, and on its way the application calls stopMove() or moveTo(p). When the ramp has ended and the platform's driver has output all commands of the queue, the motor has made exactly the pulses which lead to the stop position of C99 (stepsToStop() steps beyond the commands queued at the call), or to p: the position before the movement plus the number of pulses, each counted forward or backward by the level of the direction pin at this pulse, is this position.", "quantifier": "every history before the call, every point of the movement at which the call comes, every schedule of the task and of the driver's interrupts", "why_tests_cant": "combines all states of a moving ramp with all interleavings of task and interrupts of four drivers", "anchors": ["src/FastAccelStepper.cpp:stopMove,moveTo,fill_queue", "src/RampGenerator.cpp:getNextCommand", "src/StepperISR_avr.cpp", "src/StepperISR_idf4_esp32_mcpwm_pcnt.cpp", "src/StepperISR_idf4_esp32_rmt.cpp", "src/StepperISR_idf5_esp32_rmt.cpp", "src/StepperISR_due.cpp"]}
