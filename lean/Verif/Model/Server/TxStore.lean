import Verif.Model.AMap
import Verif.Model.Server.Types
/-!
# `txStore` (`server/client/tx_store.go`)

The nil map and the empty map behave alike, so both are `[]`. `Commit` is split: here the frames in order and
the store without the transaction; running the callback over them is in `Model/Server/Conn` (it stops at the
first error, in which case the connection closes and the store is cleared).
-/
namespace Stomp.Server
open Stomp

abbrev TxStore := AMap (List Frame)

/-- `Begin` (`server/client/tx_store.go:18-29`); `none` is `txAlreadyInProgress`. -/
def TxStore.begin (t : TxStore) (tx : Bytes) : Option TxStore :=
  match t.get? tx with
  | some _ => none
  | none => some (t.set tx [])

/-- `Abort` (`server/client/tx_store.go:31-38`); `none` is `txUnknown`. -/
def TxStore.abort (t : TxStore) (tx : Bytes) : Option TxStore :=
  match t.get? tx with
  | some _ => some (t.del tx)
  | none => none

/-- `Commit` (`server/client/tx_store.go:44-56`): the frames handed to the callback; `none` is `txUnknown`. -/
def TxStore.commit (t : TxStore) (tx : Bytes) : Option (List Frame × TxStore) :=
  match t.get? tx with
  | some l => some (l, t.del tx)
  | none => none

/-- `Add` (`server/client/tx_store.go:58-65`): removes the transaction header. -/
def TxStore.add (t : TxStore) (tx : Bytes) (f : Frame) : Option TxStore :=
  match t.get? tx with
  | some l => some (t.set tx (l ++ [{ f with header := f.header.del Hdr.transaction }]))
  | none => none

end Stomp.Server
