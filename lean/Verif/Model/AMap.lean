import Verif.Model.Bytes
/-!
# Go maps with string keys

A Go `map[string]T` as an association list. Only lookup, assignment and deletion are used; where the source
iterates over a map (`server/client/conn.go:341`) the order is left open.
-/
namespace Stomp

abbrev AMap (β : Type) := List (Bytes × β)

namespace AMap
variable {β : Type}

/-- `v, ok := m[k]` -/
def get? : AMap β → Bytes → Option β
  | [], _ => none
  | (k', v) :: m, k => if k' = k then some v else get? m k

/-- `m[k] = v` -/
def set : AMap β → Bytes → β → AMap β
  | [], k, v => [(k, v)]
  | (k', v') :: m, k, v => if k' = k then (k', v) :: m else (k', v') :: set m k v

/-- `delete(m, k)` -/
def del : AMap β → Bytes → AMap β
  | [], _ => []
  | (k', v') :: m, k => if k' = k then del m k else (k', v') :: del m k

/-- The list stored under `k`, empty if there is none. -/
def list {γ : Type} (m : AMap (List γ)) (k : Bytes) : List γ := (m.get? k).getD []

end AMap
end Stomp
