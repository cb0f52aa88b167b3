import Verif.Model.Bytes
/-!
# `frame.Header` as an ordered list of entries

This is the value-level view used by the rest of the model. `Model/HeaderHeap.lean` models the actual
`[]string` representation with backing arrays and in-place updates and `Props/Header.lean` proves that
it refines the functions of this file (C07, C08).
-/
namespace Stomp

/-- `frame.Header` (`frame/header.go:53-55`), the `slice` read two by two. Simplification: a nil
`*Header` is the empty list (the only code that distinguishes it is `writer.go:52`, which writes no
entry in both cases, and `conn.go:818`, modelled explicitly there). -/
abbrev Header := List (Bytes × Bytes)

namespace Header

/-- `(*Header).Add` (`frame/header.go:71-73`). -/
def add (h : Header) (k v : Bytes) : Header := h ++ [(k, v)]

/-- `(*Header).AddHeader` (`frame/header.go:76-83`): adds each entry in turn. -/
def addHeader (h : Header) (h' : Header) : Header := h'.foldl (fun a e => a.add e.1 e.2) h

/-- `(*Header).Contains` (`frame/header.go:130-136`) via `index` (`frame/header.go:179-186`): first
value for the key. `none` is `ok == false`. -/
def contains : Header → Bytes → Option Bytes
  | [], _ => none
  | (k, v) :: rest, key => if k = key then some v else contains rest key

/-- `(*Header).Get` (`frame/header.go:98-101`): "" when absent. -/
def get (h : Header) (key : Bytes) : Bytes := (h.contains key).getD []

/-- `(*Header).Set` (`frame/header.go:88-94`): overwrite the first entry or append. -/
def set : Header → Bytes → Bytes → Header
  | [], key, value => [(key, value)]
  | (k, v) :: rest, key, value =>
    if k = key then (k, value) :: rest else (k, v) :: set rest key value

/-- `(*Header).GetAll` (`frame/header.go:106-114`). -/
def getAll : Header → Bytes → List Bytes
  | [], _ => []
  | (k, v) :: rest, key => if k = key then v :: getAll rest key else getAll rest key

/-- `(*Header).Del` (`frame/header.go:139-143`): removes entries until `index` finds none. -/
def del : Header → Bytes → Header
  | [], _ => []
  | (k, v) :: rest, key => if k = key then del rest key else (k, v) :: del rest key

/-- `(*Header).Clone` (`frame/header.go:151-155`). At the value level this is the identity; aliasing is
the subject of `Model/HeaderHeap.lean`. -/
def clone (h : Header) : Header := h

end Header

/-! Header names (`frame/header.go:12-32`) and `ReplyToHeader` (`conn.go:33`). -/
namespace Hdr
def contentLength : Bytes := b!"content-length"
def contentType : Bytes := b!"content-type"
def receipt : Bytes := b!"receipt"
def acceptVersion : Bytes := b!"accept-version"
def host : Bytes := b!"host"
def version : Bytes := b!"version"
def login : Bytes := b!"login"
def passcode : Bytes := b!"passcode"
def heartBeat : Bytes := b!"heart-beat"
def session : Bytes := b!"session"
def server : Bytes := b!"server"
def destination : Bytes := b!"destination"
def id : Bytes := b!"id"
def ack : Bytes := b!"ack"
def transaction : Bytes := b!"transaction"
def receiptId : Bytes := b!"receipt-id"
def subscription : Bytes := b!"subscription"
def messageId : Bytes := b!"message-id"
def message : Bytes := b!"message"
def replyTo : Bytes := b!"reply-to"
end Hdr

/-- `(*Header).ContentLength` (`frame/header.go:161-175`). `none`: `ok == false`; `some none`: present
but malformed (`err != nil`); `some (some n)`: value. -/
def Header.contentLength (h : Header) : Option (Option Nat) :=
  match h.contains Hdr.contentLength with
  | none => none
  | some text => some (parseUint 32 text)

end Stomp
