import Verif.Props.BufioWriter
import Verif.Props.Header
import Verif.Props.HeartBeat
import Verif.Props.Client.Connect
import Verif.Props.Client.Frames
import Verif.Props.Interop
import Verif.Props.Handshake
import Verif.Props.Server.Basics
import Verif.Proofs.Server.GateInv
import Verif.Model.Server.System
import Verif.Props.Server.Session
import Verif.Props.Server.Replies
import Verif.Proofs.Server.Addr
import Verif.Props.Server.Queues
import Verif.Props.Server.Conservation
import Verif.Props.Server.Acks
import Verif.Props.Server.Deadlock
import Verif.Props.Server.Topics
import Verif.Props.Client.Closed
import Verif.Props.Client.Order
import Verif.Props.Client.Receipts
import Verif.Props.Client.Messages
import Verif.Props.Client.Unsubscribe
import Verif.Props.Client.Failure
import Verif.Props.Client.Timer
import Verif.Props.Server.Wire
import Verif.Props.Client.Panics
import Verif.Props.Server.Subscriptions
import Verif.Props.Server.Disconnected
import Verif.Props.Client.Wire
import Verif.Props.Server.Redelivery
import Verif.Props.EndToEnd
import Verif.Props.Server.Timer
import Verif.Props.Client.Read
import Verif.Props.Client.Slow
import Verif.Props.HeartBeats
import Verif.Props.Server.TopicOrder
import Verif.Props.TopicOrder
import Verif.Props.Server.QueueOrder
import Verif.Props.QueueOrder
import Verif.Props.Confirmed
import Verif.Props.Joint
import Verif.Props.JointUnsub
import Verif.Props.Server.Settings
import Verif.Props.Rest
import Verif.Props.Client.Stats
import Verif.Props.Effects
import Verif.Props.Client.TxSystem
import Verif.Props.HeartBeatsDue
import Verif.Props.Once
import Verif.Props.Client.Ids
import Verif.Props.Server.Busy
import Verif.Props.Client.Busy
import Verif.Props.JointBusy
import Verif.Props.Server.AnyStorage
import Verif.Props.Server.Dialogue
import Verif.Props.JointDialogue
import Verif.Props.Client.Bodies
import Verif.Props.Client.Grace
import Verif.Props.Memory
import Verif.Props.Server.Races
import Verif.Props.Client.Refused
import Verif.Props.Client.Dial
import Verif.Props.Server.Forgotten
import Verif.Props.Client.Leaks
import Verif.Props.Server.Leaks
import Verif.Props.Server.Lists
import Verif.Props.Server.Few
import Verif.Props.Server.Courteous
import Verif.Props.JointCourteous
import Verif.Props.Server.Managers
import Verif.Props.Standard
import Verif.Props.Server.Conversation
import Verif.Props.Client.Conversation
import Verif.Props.Server.Serve
import Verif.Props.JointConversation
import Verif.Props.Client.Lifecycle
import Verif.Props.JointModest
import Verif.Props.Client.Buffers
import Verif.Props.Client.Races
