import Verif.Model.Device
import Verif.Props.Checksum
import Verif.Props.Stuffing
import Verif.Props.Send
import Verif.Props.Receive
import Verif.Props.Timing
import Verif.Props.History
import Verif.Props.DataTypes
import Verif.Props.Ownership
import Verif.Props.Response
import Verif.Props.Layout
import Verif.Props.Words
import Verif.Props.Iterators
import Verif.Props.Device
import Verif.Props.Cli
import Verif.Props.StaticBuffer
import Verif.Model.Mock
import Verif.Props.Checks
import Verif.Props.Construct
import Verif.Props.Status
import Verif.Props.Mock
import Verif.Props.MockGroup
import Verif.Props.MockSerial
import Verif.Props.Serial2
import Verif.Lemmas.Script
import Verif.Props.Session
import Verif.Props.WireHeader
import Verif.Props.Resync
import Verif.Props.Network
import Verif.Props.GroupReads
import Verif.Model.Display
import Verif.Spec.Text
import Verif.Lemmas.Text
import Verif.Props.Display
import Verif.Props.CliRun
import Verif.Props.Calls
import Verif.Props.StuffSize
import Verif.Props.OwnTests
import Verif.Props.DeviceCalls
import Verif.Props.IteratorCalls
import Verif.Model.RunMock
import Verif.Lemmas.Saw
import Verif.Lemmas.Watch
import Verif.Lemmas.MotorThread
import Verif.Lemmas.LineThread
import Verif.Lemmas.Conversation
import Verif.Lemmas.ClientThread
import Verif.Props.Concurrent
import Verif.Spec.Wire
import Verif.Lemmas.Wire
import Verif.Props.LineTime
import Verif.Props.LineGroups
import Verif.Model.Log
import Verif.Props.Log
import Verif.Model.CliLog
import Verif.Props.CliLog
import Verif.Props.Same
import Verif.Props.CliMotors
import Verif.Lemmas.GroupThread
import Verif.Lemmas.GroupStory
import Verif.Model.IntegrationTests
import Verif.Lemmas.ClientGroup
import Verif.Props.IntegrationTests
import Verif.Model.ShellCompletion
import Verif.Props.ShellCompletion
import Verif.Lemmas.Room
import Verif.Lemmas.Crash
import Verif.Props.LinePanics
import Verif.Lemmas.MotorFine
import Verif.Props.MotorsLive
import Verif.Spec.Damage
import Verif.Lemmas.Damage
import Verif.Props.Damage
import Verif.Model.RealRun
import Verif.Spec.Environment
import Verif.Props.RealRun
import Verif.Spec.LineErrors
import Verif.Lemmas.LineErrors
import Verif.Props.LineErrors
import Verif.Model.Convert
import Verif.Props.Convert
import Verif.Props.Borrow
import Verif.Model.AnyPort
import Verif.Lemmas.AnyPort
import Verif.Lemmas.ScriptPort
import Verif.Props.AnyPort
import Verif.Props.AnyPortMore
import Verif.Model.AnyClient
import Verif.Spec.Standin
import Verif.Lemmas.Standin
import Verif.Lemmas.StandinOps
import Verif.Props.Standin
import Verif.Spec.Prompt
import Verif.Lemmas.Prompt
import Verif.Props.Prompt
import Verif.Model.SizeHint
import Verif.Props.StopAnywhere
import Verif.Spec.Forget
import Verif.Lemmas.Forget
import Verif.Lemmas.ForgetBus
import Verif.Model.Getters
import Verif.Props.Forget
import Verif.Spec.Again
import Verif.Props.Retry
import Verif.Model.Unwind
import Verif.Spec.Unwind
import Verif.Props.Unwind
import Verif.Props.LostAnswers
import Verif.Props.DamagedAnswers
import Verif.Model.DebugText
import Verif.Spec.Template
import Verif.Lemmas.DebugText
import Verif.Props.DebugText
import Verif.Model.EncodedSize
import Verif.Spec.EncodedSize
import Verif.Props.EncodedSize
import Verif.Model.Endless
import Verif.Props.Endless
import Verif.Spec.Late
import Verif.Props.Late
import Verif.Spec.Shifted
import Verif.Props.Shifted
import Verif.Props.Echo
import Verif.Spec.ByHand
import Verif.Lemmas.ByHand
import Verif.Props.ByHand
import Verif.Props.AskAll
import Verif.Spec.Duration
import Verif.Lemmas.Duration
import Verif.Props.Duration
import Verif.Spec.Roomier
import Verif.Lemmas.Roomier
import Verif.Props.Roomier
import Verif.Model.UnitTests
import Verif.Props.UnitTests
import Verif.Model.Moves
import Verif.Spec.Moves
import Verif.Props.Moves
import Verif.Model.AnyBuffer
import Verif.Lemmas.AnyBuffer
import Verif.Props.AnyBuffer
import Verif.Model.AnyBufferClient
import Verif.Props.AnyBufferMore
import Verif.Model.AnyBus
import Verif.Props.AnyBus
import Verif.Props.AnyPortLoop
import Verif.Model.AnyValue
import Verif.Spec.Converted
import Verif.Props.AnyValue
