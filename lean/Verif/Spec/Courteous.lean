import Verif.Spec.Subscriptions
import Verif.Spec.Queue
/-! # Specification: clients that do the server no harm -/
namespace Stomp.Server.Spec
open Stomp

/-- What a client has sent is harmless: its subscriptions are to queues, and at most 16; its SEND frames have a destination; and if it sends ACK or NACK frames, all its subscriptions are in the mode in which nothing
is acknowledged. -/
structure Courteous (fs : List Frame) : Prop where
  queues : ∀ p ∈ fs.filterMap opens, IsQueue p.2
  few : (fs.filterMap opens).length ≤ 16
  sends : ∀ f ∈ fs, f.command = b!"SEND" → (hdr f b!"destination").isSome = true
  acks : (∃ f ∈ fs, f.command = b!"ACK" ∨ f.command = b!"NACK") → ∀ q ∈ fs, q.command = b!"SUBSCRIBE" → (hdr q b!"ack").getD b!"auto" = b!"auto"

end Stomp.Server.Spec
