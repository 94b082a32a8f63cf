import Verif.Props.AddEntry
import Verif.Props.Arrive
import Verif.Props.Avr
import Verif.Props.AvrTimer
import Verif.Props.Brake
import Verif.Props.Bytes
import Verif.Props.Clock
import Verif.Props.Config
import Verif.Props.Control
import Verif.Props.Cycles
import Verif.Props.Drive
import Verif.Props.Due
import Verif.Props.DueBoard
import Verif.Props.DueTime
import Verif.Props.EndToEnd
import Verif.Props.EndToEndFast
import Verif.Props.Engine
import Verif.Props.EspBoard
import Verif.Props.EspPin
import Verif.Props.External
import Verif.Props.ExternalEsp
import Verif.Props.Fast
import Verif.Props.Fill
import Verif.Props.Halt
import Verif.Props.Limits
import Verif.Props.Mcpwm
import Verif.Props.Motion
import Verif.Props.Params
import Verif.Props.Periods
import Verif.Props.Planner
import Verif.Props.Pmf
import Verif.Props.Preempt
import Verif.Props.PulseCounter
import Verif.Props.Queue
import Verif.Props.QueueReads
import Verif.Props.RampCalc
import Verif.Props.RampGen
import Verif.Props.RealTime
import Verif.Props.Redirect
import Verif.Props.Rmt
import Verif.Props.RmtBoard
import Verif.Props.RmtReg
import Verif.Props.RmtRegS
import Verif.Props.Single
import Verif.Props.Speed
import Verif.Props.StopPulses
import Verif.Props.Supply
import Verif.Props.Timed
import Verif.Audit
