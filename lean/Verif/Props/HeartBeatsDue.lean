import Verif.Proofs.Client.Sparse
import Verif.Proofs.Server.Sparse
import Verif.Props.Client.Timer
import Verif.Props.Server.Timer
/-!
# C72: heart-beats are sent only when they are due

*Client and server write a heart-beat only if they have transmitted nothing for the whole interval before it.*

True of the client. Of the server only if answers (RECEIPT) are not counted: these do not restart its timer (`server/client/conn.go:237-262`), so a heart-beat can follow a RECEIPT at once.
-/
namespace Stomp
open Stomp

/-- **C72**, client: when `processLoop` writes a heart-beat, nothing was transmitted within the interval before, nor has the connection come up within it. -/
theorem C72_client {c : Client.TCfg} {n : Nat} {es : List Client.TEv} {x x' : Client.TSys} {ok : Bool} {o : List Nat}
    (h : (Client.TSys.init c n).run c es = some x) (h' : x.step c (.step (.loopBeat ok o)) = some x') :
    c.write ≤ x.now ∧ ∀ t l o, (t, l, o) ∈ x.log → Client.Spec.Transmits o → t + c.write ≤ x.now := by
  have hi := Client.sparse_run h
  obtain ⟨r, w, s, l, h1, _⟩ := Client.tstep_cases h'
  simp only [Client.TSys.timers] at h1
  split at h1
  · rename_i hf
    cases hr : x.writeTimer with
    | none => rw [hr] at hf; cases hf
    | some dl =>
      rw [hr] at hf
      simp only [Client.fired, decide_eq_true_eq] at hf
      refine ⟨Nat.le_trans (hi.start dl hr) hf, fun t l o hf' hs => ?_⟩
      have := hi.sent t l o hf' (Client.transmits_iff.1 hs) dl hr
      omega
  · cases h1

/-- **C72**, server (partial: false as worded, see `C72_server_false`): when `processLoop` writes a heart-beat, it has written no message and no heart-beat within the interval it has announced. -/
theorem C72_server_partial {cfg : Server.Config} {me : Nat} {es : List Server.TConn.Ev} {x x' : Server.TConn} {ok : Bool}
    (h : (Server.TConn.init me).run cfg es = some x) (he : Server.TEnvOk es) {a b : Nat} (ha : Server.Spec.Announced x.conn a b)
    (h' : x.step cfg (.step (.timer ok)) = some x') :
    ∀ t l w, (t, l, .wrote w) ∈ x.log → Server.Spec.Stream w → t + Server.Spec.ms a ≤ x.now := by
  obtain ⟨_, h1, _⟩ := Server.announced_eq (Server.told_run he h) ha
  subst h1
  have hi := Server.sparse_run he h
  simp only [Server.TConn.step, Server.TConn.timerAfter] at h'
  split at h'
  · rename_i t c h1 _
    split at h1
    · rename_i hf
      intro t l w hm hs
      cases hr : x.timer with
      | none => rw [hr] at hf; cases hf
      | some dl =>
        rw [hr] at hf
        simp only [Server.TConn.fired, decide_eq_true_eq] at hf
        exact Nat.le_trans (hi.sent t l w hm hs dl hr) hf
    · cases h1
  · cases h'

namespace DueEx
open Server Server.TimerEx

/-- A SEND that asks for a receipt. -/
def asking : Frame := ⟨b!"SEND", [(b!"destination", b!"/queue/a"), (b!"receipt", b!"7")], [1]⟩

/-- The client sends a frame 59 seconds after the handshake and gets a RECEIPT; after another second the timer fires. -/
def answered : List TConn.Ev := connFrame hello ++ [.delay (59 * second)] ++ connFrame asking ++ [.delay (1 * second)]
def answeredEnd : TConn := ((TConn.init 0).run sampleCfg answered).getD (.init 0)
def answeredNext : TConn := (answeredEnd.step sampleCfg (.step (.timer true))).getD answeredEnd

end DueEx

open DueEx Server.TimerEx in
/-- **C72** is false of the server as worded: it writes a heart-beat one second after a RECEIPT, though the announced interval is a minute. -/
theorem C72_server_false : ∃ es x x', (Server.TConn.init 0).run Server.sampleCfg es = some x ∧ Server.TEnvOk es ∧ Server.Spec.Announced x.conn 60000 60000 ∧
    x.step Server.sampleCfg (.step (.timer true)) = some x' ∧ x'.conn.out = x.conn.out ++ [⟨none, none⟩] ∧
    ∃ t l w, (t, l, Server.TObs.wrote w) ∈ x.log ∧ w.frame.map (·.command) = some b!"RECEIPT" ∧ x.now = t + 1 * second := by
  refine ⟨answered, answeredEnd, answeredNext, by decide +kernel, env (by decide +kernel), announced (by decide +kernel), by decide +kernel, by decide +kernel,
    59 * second, 0, ⟨some ⟨b!"RECEIPT", [(b!"receipt-id", b!"7")], []⟩, none⟩, by decide +kernel, by decide +kernel, by decide +kernel⟩

/-! ## The theorems say something -/

namespace DueEx
open Client Client.Ex

/-- A heart-beat after ten units of time, and another one after ten more. -/
def beats : List TEv := [.delay 10, .step (.loopBeat true []), .delay 10]
def beatsEnd : TSys := ((TSys.init tcfg 0).run tcfg beats).getD (.init tcfg 0)

example : ∃ x', beatsEnd.step tcfg (.step (.loopBeat true [])) = some x' ∧ (10, 0, Obs.beat) ∈ beatsEnd.log ∧ beatsEnd.now = 20 ∧
    ∀ t l o, (t, l, o) ∈ beatsEnd.log → Client.Spec.Transmits o → t + 10 ≤ beatsEnd.now := by
  have h : (TSys.init tcfg 0).run tcfg beats = some beatsEnd := rfl
  have h' : beatsEnd.step tcfg (.step (.loopBeat true [])) = some ((beatsEnd.step tcfg (.step (.loopBeat true []))).getD beatsEnd) := rfl
  exact ⟨_, h', by decide, rfl, (C72_client h h').2⟩

end DueEx

namespace DueEx
open Server Server.TimerEx

example : ∃ x', plainEnd.step sampleCfg (.delay (50 * second)) = some x' ∧ ∃ x'', x'.step sampleCfg (.step (.timer true)) = some x'' ∧
    (∃ l w, (120 * second, l, TObs.wrote w) ∈ x'.log ∧ Server.Spec.Stream w) ∧
    ∀ t l w, (t, l, .wrote w) ∈ x'.log → Server.Spec.Stream w → t + Server.Spec.ms 60000 ≤ x'.now := by
  let run := plainRun ++ [TConn.Ev.delay (50 * second)]
  let x' := ((Server.TConn.init 0).run sampleCfg run).getD plainEnd
  have h : (Server.TConn.init 0).run sampleCfg run = some x' := by decide +kernel
  have h' : x'.step sampleCfg (.step (.timer true)) = some ((x'.step sampleCfg (.step (.timer true))).getD x') := by decide +kernel
  exact ⟨x', by decide +kernel, _, h', ⟨0, ⟨none, none⟩, by decide +kernel, .inl rfl⟩, C72_server_partial h (env (by decide +kernel)) (announced (by decide +kernel)) h'⟩

end DueEx
end Stomp
