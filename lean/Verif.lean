import Verif.Props.DataCoding
import Verif.Props.Util
import Verif.Props.Transport
import Verif.Props.Ps
import Verif.Props.DevData
import Verif.Props.Safety
import Verif.Props.Registers
import Verif.Props.Pages
import Verif.Props.Stream
import Verif.Props.States
import Verif.Props.Drop
import Verif.Props.Sleep
import Verif.Props.GuidDrop
import Verif.Props.Nickname
import Verif.Props.Time
import Verif.Props.Alarm
import Verif.Props.Restore
import Verif.Props.Dm
import Verif.Props.DmRestore
import Verif.Props.DmRegs
import Verif.Props.DmNg
import Verif.Props.DmNgRegs
import Verif.Spec.Logger
import Verif.Props.Logger
import Verif.Model.Driver
import Verif.Spec.Driver
import Verif.Props.Driver
import Verif.Props.Clock
import Verif.Props.Can
import Verif.Model.Events
import Verif.Model.EventTable
import Verif.Spec.EventTypes
import Verif.Spec.Events
import Verif.Lemmas.Events
import Verif.Props.Events
import Verif.Spec.Network
import Verif.Lemmas.Network
import Verif.Props.Network
import Verif.Props.Serial
import Verif.Props.Main
import Verif.Props.CanDrv
import Verif.Props.PsAccess
import Verif.Model.Callout
import Verif.Lemmas.Callout
import Verif.Props.Callout
import Verif.Props.Probe
import Verif.Props.Lamp
import Verif.Model.AvrApp
import Verif.Spec.AvrApp
import Verif.Lemmas.DmC
import Verif.Props.AvrApp
import Verif.Props.AvrFw
import Verif.Spec.AvrMdf
import Verif.Props.AvrMdf
import Verif.Model.FlexCan
import Verif.Spec.FlexCan
import Verif.Props.FlexCan
import Verif.Model.DmNgDebug
import Verif.Props.DmNgDebug
import Verif.Props.CalloutOnce
import Verif.Model.CalloutReg
import Verif.Lemmas.CalloutReg
import Verif.Props.CalloutReg
import Verif.Props.CalloutRegOnce
import Verif.Spec.Join
import Verif.Lemmas.Join
import Verif.Props.Join
import Verif.Props.DiscoveryEnds
import Verif.Spec.Wear
import Verif.Lemmas.Wear
import Verif.Props.Wear
import Verif.Model.ArmApp
import Verif.Spec.ArmApp
import Verif.Props.ArmApp
import Verif.Spec.Restart
import Verif.Props.Restart
import Verif.Spec.Program
import Verif.Props.Program
import Verif.Spec.Gate
import Verif.Props.Gate
import Verif.Spec.LastWrite
import Verif.Props.LastWrite
import Verif.Spec.PagesUsed
import Verif.Props.PagesUsed
import Verif.Model.SerialPort
import Verif.Spec.SerialPort
import Verif.Props.SerialPort
import Verif.Model.CanNode
import Verif.Spec.CanNode
import Verif.Props.CanNode
import Verif.Model.TimerDrv
import Verif.Spec.TimerDrv
import Verif.Props.TimerDrv
import Verif.Model.AvrBoot
import Verif.Props.AvrBoot
import Verif.Spec.Master
import Verif.Props.Master
import Verif.Spec.Settings
import Verif.Props.Settings
import Verif.Spec.CanConfig
import Verif.Props.CanConfig
import Verif.Model.AvrSys
import Verif.Spec.AvrSys
import Verif.Props.AvrSys
import Verif.Spec.PowerLoss
import Verif.Props.PowerLoss
import Verif.Spec.SegmentLoss
import Verif.Props.SegmentLoss
import Verif.Props.NickLoss
import Verif.Spec.StreamBus
import Verif.Props.StreamBus
import Verif.Props.UtilExact
import Verif.Props.PagesExact
import Verif.Props.RegistersExact
import Verif.Props.TransportExact
import Verif.Props.DmExact
import Verif.Props.LoggerExact
import Verif.Props.DmNgExact
import Verif.Props.Speech
import Verif.Props.SpeechC
import Verif.Props.SpeechBus
import Verif.Lemmas.CalloutWalk
import Verif.Props.NickLossC
import Verif.Spec.AvrLoss
import Verif.Props.AvrLoss
import Verif.Spec.AvrBeat
import Verif.Props.AvrBeat
import Verif.Spec.Ask
import Verif.Props.CanAsk
import Verif.Props.CanReadBack
import Verif.Props.CanSegment
import Verif.Props.AvrSegment
import Verif.Props.AvrJoin
import Verif.Props.AvrProbe
import Verif.Spec.Answers
import Verif.Props.CanAnswers
import Verif.Props.AvrAnswers
import Verif.Spec.Heard
import Verif.Props.CanHeard
import Verif.Props.AvrHeard
import Verif.Props.CanRequest
import Verif.Props.CanEvents
import Verif.Props.AvrEvents
import Verif.Props.SetNick
import Verif.Props.CanSetNick
import Verif.Props.AvrSetNick
import Verif.Spec.AvrSegBeat
import Verif.Props.AvrSegBeat
import Verif.Props.AvrSegJoin
import Verif.Spec.AvrFinds
import Verif.Props.AvrFinds
import Verif.Spec.AvrKeep
import Verif.Props.AvrKeep
import Verif.Spec.AvrSegKeep
import Verif.Props.AvrSegKeep
import Verif.Spec.AvrStable
import Verif.Props.AvrStable
import Verif.Spec.AvrLives
import Verif.Props.AvrLives
import Verif.Spec.AvrPower
import Verif.Props.AvrPower
import Verif.Props.AvrReturn
import Verif.Spec.AvrOnline
import Verif.Props.AvrOnline
