import Verif.Model.Toy
import Verif.Proofs.Extensions
import Verif.Props.Wire
import Verif.Props.Messages
import Verif.Props.Schedule
import Verif.Props.Utils
import Verif.Props.Crypto
import Verif.Props.Keys
import Verif.Props.Auth
import Verif.Props.Order
import Verif.Props.Stream
import Verif.Props.Lifecycle
import Verif.Props.Record
import Verif.Props.Attack
import Verif.Props.Negotiation
import Verif.Props.Wrapper
import Verif.Props.Endpoint
import Verif.Props.EndToEnd
import Verif.Props.Mandatory
import Verif.Props.Answers
import Verif.Props.Alerts
import Verif.Props.Lost
import Verif.Props.Schemes
import Verif.Props.KeyLog
import Verif.Spec.Start
import Verif.Proofs.Start
import Verif.Props.Start
import Verif.Spec.Veil
import Verif.Proofs.Veil
import Verif.Props.Veil
import Verif.Spec.Duplex
import Verif.Proofs.Duplex
import Verif.Props.Duplex
import Verif.Spec.Farewell
import Verif.Proofs.Farewell
import Verif.Props.Farewell
import Verif.Spec.Truncation
import Verif.Proofs.Truncation
import Verif.Props.Truncation
import Verif.Proofs.Completion
import Verif.Spec.Sockets
import Verif.Proofs.Sockets
import Verif.Props.Sockets
import Verif.Spec.Talkers
import Verif.Proofs.Talkers
import Verif.Props.Talkers
import Verif.Spec.Ffdhe
import Verif.Proofs.Ffdhe
import Verif.Props.Ffdhe
import Verif.Spec.Whole
import Verif.Proofs.Whole
import Verif.Props.Whole
import Verif.Model.Examples
import Verif.Spec.Examples
import Verif.Proofs.Examples
import Verif.Props.Examples
import Verif.Spec.Secret
import Verif.Proofs.Secret
import Verif.Props.Secret
import Verif.Props.Outage
import Verif.Props.Deploy
import Verif.Props.Revoked
import Verif.Props.OcspService
import Verif.Proofs.Narrow
import Verif.Props.Narrow
import Verif.Model.Main
import Verif.Props.Main
import Verif.Spec.Hoard
import Verif.Proofs.Hoard
import Verif.Props.Hoard
import Verif.Spec.Encoding
import Verif.Proofs.Encoding
import Verif.Proofs.Sent
import Verif.Props.Encoding
import Verif.Model.EarlySecrets
import Verif.Spec.EarlySchedule
import Verif.Proofs.EarlySchedule
import Verif.Props.EarlySchedule
import Verif.Model.SplitExtensions
import Verif.Proofs.SplitExtensions
import Verif.Props.SplitExtensions
import Verif.Spec.PostHandshake
import Verif.Proofs.Ticket
import Verif.Props.Ticket
import Verif.Model.SerialObject
import Verif.Spec.StreamObject
import Verif.Proofs.SerialObject
import Verif.Props.SerialObject
import Verif.Spec.Impostor
import Verif.Proofs.Impostor
import Verif.Props.Impostor
import Verif.Spec.Settlement
import Verif.Proofs.Settlement
import Verif.Props.Settlement
import Verif.Proofs.Mute
import Verif.Props.Mute
import Verif.Spec.Hand
import Verif.Proofs.Hand
import Verif.Props.Hand
import Verif.Props.Interop
import Verif.Props.InteropServer
import Verif.Props.InteropData
import Verif.Props.InteropSend
