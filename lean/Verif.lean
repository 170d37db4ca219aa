import Verif.Audit
import Verif.Conformance
import Verif.Lemmas.Assoc
import Verif.Lemmas.Bits
import Verif.Lemmas.Dict
import Verif.Lemmas.Float
import Verif.Lemmas.Float16
import Verif.Lemmas.Ieee
import Verif.Lemmas.PyInt
import Verif.Lemmas.Requests
import Verif.Lemmas.Tables
import Verif.Lemmas.Text
import Verif.Lemmas.Wire
import Verif.Model.Address
import Verif.Model.Base
import Verif.Model.Client
import Verif.Model.ClientLog
import Verif.Model.ClientOutput
import Verif.Model.Daemon
import Verif.Model.DaemonMain
import Verif.Model.DaemonSystem
import Verif.Model.Decode
import Verif.Model.DecodeLog
import Verif.Model.DiscoveryLog
import Verif.Model.DiscoveryMain
import Verif.Model.Dpt
import Verif.Model.Encode
import Verif.Model.EncodeLog
import Verif.Model.Float
import Verif.Model.IpText
import Verif.Model.Iterables
import Verif.Model.KnxNetIp
import Verif.Model.LData
import Verif.Model.Msg
import Verif.Model.MsgTexts
import Verif.Model.NumberAsap
import Verif.Model.PyInt
import Verif.Model.Remote
import Verif.Model.Rename
import Verif.Model.RequestTexts
import Verif.Model.SharedTables
import Verif.Model.State
import Verif.Model.StateText
import Verif.Model.TableTexts
import Verif.Model.Tables
import Verif.Model.Texts
import Verif.Model.TunnelProgram
import Verif.Model.Unicode
import Verif.Model.UnitTexts
import Verif.Model.UsbClient
import Verif.Model.UsbLog
import Verif.Model.UsbOutput
import Verif.Props.AddressTables
import Verif.Props.Addresses
import Verif.Props.Alike
import Verif.Props.AssocTables
import Verif.Props.Canonical
import Verif.Props.Channel
import Verif.Props.Client
import Verif.Props.ClientLog
import Verif.Props.ClientOutput
import Verif.Props.Complaint
import Verif.Props.Daemon
import Verif.Props.DaemonKilled
import Verif.Props.DaemonMain
import Verif.Props.DaemonPaced
import Verif.Props.DaemonProgress
import Verif.Props.DaemonReads
import Verif.Props.DaemonStream
import Verif.Props.DaemonSystem
import Verif.Props.Datapoints
import Verif.Props.DecodeComplaint
import Verif.Props.DecodeLog
import Verif.Props.Decoder
import Verif.Props.Discovery
import Verif.Props.DiscoveryLog
import Verif.Props.DiscoveryMain
import Verif.Props.DptNumbers
import Verif.Props.EncodeLog
import Verif.Props.Encoder
import Verif.Props.Encoding
import Verif.Props.EndToEnd
import Verif.Props.Exact
import Verif.Props.Exact32
import Verif.Props.Factory
import Verif.Props.FieldOrder
import Verif.Props.Float16
import Verif.Props.Float32
import Verif.Props.FrameTypes
import Verif.Props.Gateway
import Verif.Props.GroupObjects
import Verif.Props.Hundredths
import Verif.Props.Ieee
import Verif.Props.Individual
import Verif.Props.IntEncode
import Verif.Props.IpText
import Verif.Props.Iterables
import Verif.Props.Lengths
import Verif.Props.LogTexts
import Verif.Props.LossyNet
import Verif.Props.MsgTexts
import Verif.Props.NumberAsap
import Verif.Props.Numbers
import Verif.Props.Order
import Verif.Props.OtherType
import Verif.Props.PropertyServices
import Verif.Props.Range16
import Verif.Props.Readdress
import Verif.Props.Recovery
import Verif.Props.Refusal
import Verif.Props.Relabel
import Verif.Props.Remote
import Verif.Props.Rename
import Verif.Props.Replies
import Verif.Props.RequestTexts
import Verif.Props.Responses
import Verif.Props.SharedTables
import Verif.Props.StartStop
import Verif.Props.StateText
import Verif.Props.StatusCodes
import Verif.Props.TableMachine
import Verif.Props.TableTexts
import Verif.Props.Telegrams
import Verif.Props.Temperature
import Verif.Props.Text
import Verif.Props.Texts
import Verif.Props.TimedNet
import Verif.Props.TunnelProgram
import Verif.Props.Tunnelling
import Verif.Props.Tunnels
import Verif.Props.TwoDevices
import Verif.Props.UnitTexts
import Verif.Props.UsbClient
import Verif.Props.UsbLog
import Verif.Props.UsbOutput
import Verif.Props.UsbPackets
import Verif.Props.ValueForm
import Verif.Spec.Alike
import Verif.Spec.Canonical
import Verif.Spec.Channel
import Verif.Spec.ClientLog
import Verif.Spec.ClientOutput
import Verif.Spec.Complaint
import Verif.Spec.Control
import Verif.Spec.Daemon
import Verif.Spec.DaemonMain
import Verif.Spec.DaemonPaced
import Verif.Spec.DaemonProgress
import Verif.Spec.DaemonStream
import Verif.Spec.DaemonSystem
import Verif.Spec.DecodeComplaint
import Verif.Spec.DecodeLog
import Verif.Spec.Digits
import Verif.Spec.Discovery
import Verif.Spec.DiscoveryLog
import Verif.Spec.Dpt
import Verif.Spec.EncodeLog
import Verif.Spec.EndToEnd
import Verif.Spec.Factory
import Verif.Spec.FieldOrder
import Verif.Spec.FrameTypes
import Verif.Spec.Frames
import Verif.Spec.Gateway
import Verif.Spec.GroupObjects
import Verif.Spec.Ieee
import Verif.Spec.IpText
import Verif.Spec.LogTexts
import Verif.Spec.LossyNet
import Verif.Spec.MsgTexts
import Verif.Spec.Network
import Verif.Spec.Number
import Verif.Spec.NumberAsap
import Verif.Spec.Numbers
import Verif.Spec.Range16
import Verif.Spec.Readdress
import Verif.Spec.Refusal
import Verif.Spec.Relabel
import Verif.Spec.Remote
import Verif.Spec.Replies
import Verif.Spec.RequestTexts
import Verif.Spec.Requests
import Verif.Spec.Responses
import Verif.Spec.Sessions
import Verif.Spec.SharedTables
import Verif.Spec.StateText
import Verif.Spec.StatusCodes
import Verif.Spec.TableMachine
import Verif.Spec.TableTexts
import Verif.Spec.Tables
import Verif.Spec.Text
import Verif.Spec.Texts
import Verif.Spec.TimedNet
import Verif.Spec.TunnelProgram
import Verif.Spec.Tunnels
import Verif.Spec.UsbClient
import Verif.Spec.UsbLog
import Verif.Spec.UsbOutput
import Verif.Spec.UsbPackets
import Verif.Spec.ValueForm
