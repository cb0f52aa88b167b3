import Verif.Model.Client.TxSystem
import Verif.Spec.Client
import Verif.Spec.Effects
/-! # Specification: a transaction on the wire -/
namespace Stomp.Client.Spec
open Stomp

/-- The frame belongs to transaction `t`. -/
def inTx (t : Bytes) (f : Frame) : Bool :=
  decide ((f.command ∈ [b!"BEGIN", b!"COMMIT", b!"ABORT"] ∨ f.command ∈ [b!"SEND", b!"ACK", b!"NACK"]) ∧ Server.Spec.hdr f b!"transaction" = some t)

/-- The frames of a transaction as they should be: a BEGIN, then SENDs, ACKs and NACKs, then a COMMIT or an ABORT, and nothing after it; or part of this, from its beginning. -/
def Bracket (l : List Frame) : Prop :=
  ∃ b ops e : List Frame, l = b ++ ops ++ e ∧ b.length ≤ 1 ∧ e.length ≤ 1 ∧ (∀ f ∈ b, f.command = b!"BEGIN") ∧ (∀ f ∈ ops, Server.Spec.operation f) ∧
    (∀ f ∈ e, f.command = b!"COMMIT" ∨ f.command = b!"ABORT") ∧ (b = [] → ops = [] ∧ e = [])

/-- The program uses its transactions in turn: it calls a method when the calls it has made of methods of this transaction have returned. It does not give `Send` a transaction header as an option. -/
def InTurn (x : XSys) : XEv → Prop
  | .method i _ => ∀ th ∈ x.threads, th.tx = i → ∃ r, th.pc = .ret r
  | .sys (.call (.send _ _ _ opts)) => ∀ v, .header b!"transaction" v ∉ opts
  | _ => True

/-- Executions of such programs. -/
inductive Orderly (cfg : Cfg) (version : Bytes) (lastId : Nat) : XSys → Prop
  | init : Orderly cfg version lastId (XSys.init lastId)
  | step {x x' : XSys} {e : XEv} : Orderly cfg version lastId x → InTurn x e → x.step cfg version e = some x' → Orderly cfg version lastId x'

/-- `Begin`, `Commit` and `Abort` have not failed, for transaction number `i` (a failed `Send`, `Ack` or `Nack` does no harm). -/
def Unfailing (x : XSys) (i : Nat) : Prop :=
  (∀ o, x.txs[i]? = some o → ∀ r, x.sys.returned o.begun = some r → r = .ok) ∧
  ∀ th ∈ x.threads, th.tx = i → th.call.ends = true → ∀ n, th.via = some n → ∀ r, x.sys.returned n = some r → r = .ok

end Stomp.Client.Spec
