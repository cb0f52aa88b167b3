import Verif.Model.Server.AnyStorage
/-! # Specification: what a queue storage has to do -/
namespace Stomp.Server.Spec
open Stomp

/-- `content st q` are the messages of queue `q`, first one first. The storage starts empty; if they do not fail, `Enqueue` puts a message at the end, `Requeue` at the front, `Dequeue`
takes the first one or returns nil if there is none, and the other queues are left alone. -/
structure Keeps {σ : Type} (q : QueueStorage σ) (content : σ → Bytes → List Msg) : Prop where
  new : ∀ n, content q.new n = []
  enqueue : ∀ st n m, (q.enqueue st n m).1 = true → content (q.enqueue st n m).2 n = content st n ++ [m] ∧
    ∀ n', n' ≠ n → content (q.enqueue st n m).2 n' = content st n'
  requeue : ∀ st n m, (q.requeue st n m).1 = true → content (q.requeue st n m).2 n = m :: content st n ∧
    ∀ n', n' ≠ n → content (q.requeue st n m).2 n' = content st n'
  dequeue : ∀ st n r, (q.dequeue st n).1 = some r → r = (content st n).head? ∧ content (q.dequeue st n).2 n = (content st n).tail ∧
    ∀ n', n' ≠ n → content (q.dequeue st n).2 n' = content st n'

/-- No operation of the storage fails. -/
def NeverFails {σ : Type} (q : QueueStorage σ) : Prop :=
  ∀ st n, (∀ m, (q.enqueue st n m).1 = true ∧ (q.requeue st n m).1 = true) ∧ (q.dequeue st n).1 ≠ none

/-- The two servers are in the same state, except that one has its messages in the storage and the other in memory. -/
def SameBut {σ : Type} (content : σ → Bytes → List Msg) (x : SysOver σ) (s : Sys) : Prop :=
  { s with store := [] } = { x.sys with store := [] } ∧ ∀ n, AMap.list s.store n = content x.st n

end Stomp.Server.Spec
