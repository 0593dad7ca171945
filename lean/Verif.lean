import Verif.Model.Basic
import Verif.Model.Packet
import Verif.Model.NetworkManager
import Verif.Model.RadioHead
import Verif.Model.StateMachine
import Verif.Model.Mesh
import Verif.Model.FastLED
import Verif.Model.Color
import Verif.Model.Math
import Verif.Model.Device
import Verif.Model.Effects
import Verif.Model.LedManager
import Verif.Model.Battery
import Verif.Model.Boot
import Verif.Model.Dmx
import Verif.Model.Flash
import Verif.Spec.Mesh
import Verif.Spec.History
import Verif.Spec.Instruction
import Verif.Spec.Color
import Verif.Spec.Noise
import Verif.Spec.Registry
import Verif.Spec.Frame
import Verif.Spec.Effects
import Verif.Spec.Devices
import Verif.Props.Packet
import Verif.Props.Mesh
import Verif.Props.RadioHead
import Verif.Props.Takeover
import Verif.Props.Election
import Verif.Props.ClockSync
import Verif.Props.Instruction
import Verif.Props.Rotation
import Verif.Props.Repetition
import Verif.Props.Robust
import Verif.Props.Palette
import Verif.Props.Math
import Verif.Props.Device
import Verif.Props.Registry
import Verif.Props.Frame
import Verif.Props.Effects
import Verif.Props.Patterns
import Verif.Props.Periods
import Verif.Props.Motion
import Verif.Spec.Shapes
import Verif.Props.Shapes
import Verif.Props.Battery
import Verif.Props.Boot
import Verif.Props.Dmx
import Verif.Props.Flash
import Verif.Model.Controller
import Verif.Spec.Controller
import Verif.Props.Controller
import Verif.Props.ControllerPanel
import Verif.Props.Startup
import Verif.Model.Board
import Verif.Model.HwNet
import Verif.Spec.Board
import Verif.Spec.HwNet
import Verif.Props.Board
import Verif.Props.HwNet
import Verif.Spec.Stability
import Verif.Props.Stability
import Verif.Model.LightNet
import Verif.Spec.Show
import Verif.Lemmas.Show
import Verif.Props.Show
import Verif.Spec.Recovery
import Verif.Props.Recovery
import Verif.Spec.Remote
import Verif.Props.Remote
import Verif.Spec.Smooth
import Verif.Props.Smooth
import Verif.Model.Trellis
import Verif.Spec.Trellis
import Verif.Props.Trellis
import Verif.Props.TrellisSafe
import Verif.Spec.Memory
import Verif.Props.Memory
import Verif.Model.Button
import Verif.Model.RangeTest
import Verif.Spec.RangeTest
import Verif.Props.RangeTest
import Verif.Model.Fakes
import Verif.Spec.Fakes
import Verif.Lemmas.Fakes
import Verif.Props.Fakes
import Verif.Model.FakeNetwork
import Verif.Spec.FakeNetwork
import Verif.Lemmas.FakeNetwork
import Verif.Lemmas.FakeTick
import Verif.Lemmas.FakeElection
import Verif.Lemmas.FakeContest
import Verif.Lemmas.FakeStable
import Verif.Lemmas.FakeCourse
import Verif.Props.FakeNetwork
import Verif.Props.FakeElection
import Verif.Spec.Wiring
import Verif.Props.Wiring
import Verif.Spec.Themes
import Verif.Props.Themes
import Verif.Lemmas.FakeSafe
import Verif.Props.FakeSafe
import Verif.Spec.Timeline
import Verif.Lemmas.Timeline
import Verif.Props.Timeline
import Verif.Spec.Settling
import Verif.Lemmas.Settling
import Verif.Props.Settling
import Verif.Props.Picture
import Verif.Props.PictureDemo
import Verif.Lemmas.Follow
import Verif.Props.Follow
import Verif.Model.Simulator
import Verif.Spec.Simulator
import Verif.Props.Simulator
import Verif.Spec.FakeReset
import Verif.Lemmas.FakeReset
import Verif.Lemmas.FakeFirm
import Verif.Lemmas.FakeLost
import Verif.Lemmas.FakeResetCourse
import Verif.Props.FakeReset
import Verif.Props.FakeResetDemo
import Verif.Spec.FakeAgree
import Verif.Spec.FakeLoss
import Verif.Lemmas.FakeTell
import Verif.Lemmas.FakeAgree
import Verif.Lemmas.FakeLossy
import Verif.Lemmas.FakeLossCourse
import Verif.Lemmas.FakeDeaf
import Verif.Lemmas.FakeFirst
import Verif.Lemmas.FakeLong
import Verif.Lemmas.FakeHours
import Verif.Props.FakeAgree
import Verif.Props.FakeLoss
import Verif.Props.FakeLossDemo
import Verif.Spec.FakeHeal
import Verif.Lemmas.FakeMany
import Verif.Lemmas.FakeClean
import Verif.Lemmas.FakeDispute
import Verif.Lemmas.FakeSolo
import Verif.Lemmas.FakeHeal
import Verif.Props.FakeHeal
import Verif.Props.FakeHealDemo
import Verif.Spec.Gallery
import Verif.Props.Gallery
import Verif.Props.FakeLate
import Verif.Spec.Sleep
import Verif.Props.Sleep
import Verif.Lemmas.FakeSoon
import Verif.Lemmas.FakeTimes
import Verif.Props.FakeSoon
import Verif.Spec.Chosen
import Verif.Props.Chosen
import Verif.Props.ChosenDemo
import Verif.Spec.Clocked
import Verif.Props.Clocked
import Verif.Props.ClockedDemo
import Verif.Spec.Odds
import Verif.Props.Odds
import Verif.Props.Draws
import Verif.Model.Seed
import Verif.Props.Seed
import Verif.Spec.Silence
import Verif.Props.Silence
import Verif.Spec.Duel
import Verif.Lemmas.Duel
import Verif.Props.Duel
import Verif.Spec.ClockedRotation
import Verif.Lemmas.ClockedRotation
import Verif.Props.ClockedRotation
import Verif.Props.ClockedRotationDemo
import Verif.Spec.Wrap
import Verif.Lemmas.Wrap
import Verif.Props.Wrap
import Verif.Props.WrapDemo
import Verif.Props.WrapPicture
import Verif.Props.Informed
import Verif.Props.Flood
import Verif.Props.OptionBytes
import Verif.Props.Gradual
import Verif.Props.Setup
import Verif.Props.ControllerSetup
import Verif.Props.Flicker
import Verif.Props.PowerOn
import Verif.Props.PowerOnDemo
import Verif.Props.Crowd
import Verif.Props.Pulse
import Verif.Props.Winnow
import Verif.Props.Settle
import Verif.Props.Variety
import Verif.Props.Traffic
import Verif.Props.Channel
import Verif.Props.Handover
import Verif.Props.Pace
import Verif.Props.FireflyClock
import Verif.Props.ControllerNode
import Verif.Props.KeypadNode
import Verif.Spec.Unbroken
import Verif.Props.Unbroken
import Verif.Props.UnbrokenDown
