import Verif.Model.Rmt
import Verif.Model.Mcpwm

/-!
# External direction pins of the ESP32 backends

The polling of the direction pin by the cyclic task, src/FastAccelStepper.cpp:335-352, together with the events of the RMT and MCPWM/PCNT backends. (The AVR backend has an event
of its own for it.) The read of the flag, the callback and the clearing of the flag are one event.
-/

namespace FAS

/-- `FastAccelStepper::externalDirPinChangeCompletedIfNeeded()`, src/FastAccelStepper.cpp:335-352; `agree` = the callback confirms the requested state. -/
def Queue.extPoll (a : ArchId) (q : Queue) (agree : Bool) : Queue :=
  if q.dirPin != pinUndefined && pinIsExternal q.dirPin && (q.slot a q.readIdx).repeatEntry && agree then Avr.clearRepeatingFlag a q else q

/-- The events of a backend and the polling of the external pin: FastAccelStepperEngine::manageSteppers, src/FastAccelStepper.cpp:146-156. -/
inductive ExtEv (ε : Type) where
  | hw (ev : ε)
  | poll (agree : Bool)

/-- Executes an event, src/StepperISR_idf5_esp32_rmt.cpp, StepperISR_idf4_*_rmt.cpp and src/FastAccelStepper.cpp:335-352. -/
def Rmt.stepExt (v : RmtVer) (s : Rmt) : ExtEv Rmt.Ev → Rmt
  | .hw ev => s.step v ev
  | .poll agree => { s with q := s.q.extPoll .esp32 agree }

/-- Executes an event, src/StepperISR_idf4_esp32_mcpwm_pcnt.cpp and src/FastAccelStepper.cpp:335-352. -/
def Mcpwm.stepExt {σ : Type} (hw : PcntHw σ) (s : Mcpwm σ) : ExtEv Mcpwm.Ev → Mcpwm σ
  | .hw ev => s.step hw ev
  | .poll agree => { s with q := s.q.extPoll .esp32 agree }

end FAS
