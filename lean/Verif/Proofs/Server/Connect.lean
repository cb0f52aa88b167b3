import Verif.Model.Server.ReadLoop
import Verif.Proofs.Header
/-! # Characterisation of the server side of the handshake -/
namespace Stomp.Server
open Stomp

/-- The CONNECTED frame. -/
def connectedFrame (v : Bytes) (cx cy : Nat) : Frame :=
  ⟨b!"CONNECTED", [(b!"version", v), (b!"server", b!"stompd/x.y.z"), (b!"heart-beat", fmtUint cy ++ b!"," ++ fmtUint cx)], []⟩

/-- The conditions under which the server accepts a first frame. -/
structure Accepts (cfg : Config) (f : Frame) (v : Bytes) (cx cy : Nat) : Prop where
  command : f.command = b!"CONNECT" ∨ f.command = b!"STOMP"
  noReceipt : Stomp.Spec.firstValue f.header b!"receipt" = none
  auth : cfg.auth (f.header.get b!"login") (f.header.get b!"passcode") = true
  version : determineVersion f = .ok v
  notV10 : v ≠ b!"1.0"
  heartBeat : getHeartBeat f = .ok (cx, cy)

theorem connecting_cases (cfg : Config) (c : Conn) (ok : Bool) (f : Frame) :
    (∃ v cx cy, Accepts cfg f v cx cy ∧
      c.connecting cfg ok f =
        (let min := asMilliseconds cfg.heartBeat maxHeartBeat
         let c1 := (({ c with version := v, writeTimeout := Conn.raise cy min } : Conn).write ok
            (some (connectedFrame v (Conn.raise cx min) (Conn.raise cy min)))).1
         (({ c1 with connected := true } : Conn).emit [.connected c.me], f, .ok))) ∨
    ((¬∃ v cx cy, Accepts cfg f v cx cy) ∧
      ∃ e v, c.connecting cfg ok f = ({ c with version := v }, f, .err e)) := by
  unfold Conn.connecting
  by_cases hc : f.command = Cmd.connect ∨ f.command = Cmd.stomp
  · rw [if_pos hc]
    unfold Conn.handleConnect
    rw [contains_eq]
    cases hr : Stomp.Spec.firstValue f.header Hdr.receipt with
    | some r =>
      right
      refine ⟨?_, _, c.version, rfl⟩
      rintro ⟨v, cx, cy, h⟩
      have := h.noReceipt
      rw [show b!"receipt" = Hdr.receipt from rfl, hr] at this
      cases this
    | none =>
      simp only
      by_cases ha : cfg.auth (f.header.get Hdr.login) (f.header.get Hdr.passcode) = true
      · rw [if_neg (by simp [ha])]
        cases hv : determineVersion f with
        | error e =>
          right
          refine ⟨?_, e, c.version, rfl⟩
          rintro ⟨v, cx, cy, h⟩
          have := h.version
          rw [hv] at this; cases this
        | ok v =>
          simp only
          by_cases h10 : v = Client.V10
          · rw [if_pos h10]
            right
            refine ⟨?_, _, v, rfl⟩
            rintro ⟨v', cx, cy, h⟩
            have h1 := h.version
            rw [hv] at h1
            injection h1 with h1
            exact h.notV10 (h1 ▸ h10)
          · rw [if_neg h10]
            cases hg : getHeartBeat f with
            | error e =>
              right
              refine ⟨?_, ?_⟩
              · rintro ⟨v', cx, cy, h⟩
                have h1 := h.heartBeat
                rw [hg] at h1; cases h1
              · cases e
                · exact ⟨_, v, rfl⟩
                · exact ⟨_, v, rfl⟩
            | ok p =>
              obtain ⟨cx, cy⟩ := p
              left
              refine ⟨v, cx, cy, ⟨hc, hr, ha, hv, h10, hg⟩, ?_⟩
              simp only [Conn.write]
              split <;> rfl
      · right
        rw [if_pos (by simp [ha])]
        refine ⟨?_, _, c.version, rfl⟩
        rintro ⟨v, cx, cy, h⟩
        exact ha h.auth
  · right
    rw [if_neg hc]
    refine ⟨?_, _, c.version, rfl⟩
    rintro ⟨v, cx, cy, h⟩
    exact hc h.command

end Stomp.Server
