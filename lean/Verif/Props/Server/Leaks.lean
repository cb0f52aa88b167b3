import Verif.Spec.Leaks
import Verif.Props.Server.Timer
/-! # C87: the goroutines of a connection that has ended (the server) -/
namespace Stomp.Server
open Stomp

/-- **C87**, the server. The goroutines of a connection have come to rest (the processor has received all their requests). Then either both are there and wait, `processLoop` for something to do and `readLoop` for the client; or the clean-up
is complete, and `readLoop` has ended, or `readChannel` is full of frames at which nobody will look and `readLoop` has one more in its hand.

`_partial`: the last exception, see `C87_server_false`. -/
theorem C87_server_partial {cfg : Config} {x : TConn} (hp : Out.panic ∉ x.conn.outbox) (hs : ∀ e, Spec.ConnOwn x e → x.step cfg e = none) :
    (x.conn.stage = .run ∧ x.conn.readDone = false ∧ x.pending = none ∧ x.conn.inq = []) ∨
    (x.conn.stage = .closed ∧ (x.conn.readDone = true ∨ ((∃ f, x.pending = some f) ∧ maxPending ≤ x.conn.inq.length))) := by
  have own : ∀ {e : Conn.Ev}, Spec.ConnOwn x (.step e) → x.timerAfter e ≠ none → (x.conn.step cfg e).isSome = true → False := by
    intro e h1 h2 h3
    obtain ⟨c, h3⟩ := Option.isSome_iff_exists.1 h3
    have := hs _ h1
    cases ht : x.timerAfter e with
    | none => exact h2 ht
    | some t => simp [TConn.step, ht, h3] at this
  have hout : x.conn.outbox = [] := by
    cases ho : x.conn.outbox with
    | nil => rfl
    | cons o l =>
      cases o with
      | req r => exact (own (e := .flushed) trivial (by simp [TConn.timerAfter]) (by simp [Conn.step, ho])).elim
      | panic => exact absurd (by rw [ho]; simp) hp
  have hread : x.conn.readDone = true ∨ ((∃ f, x.pending = some f) ∧ maxPending ≤ x.conn.inq.length) ∨ (x.conn.readDone = false ∧ x.pending = none) := by
    cases hr : x.conn.readDone with
    | true => exact .inl rfl
    | false =>
      right
      cases hh : x.pending with
      | none => exact .inr ⟨rfl, rfl⟩
      | some f =>
        refine .inl ⟨⟨f, rfl⟩, Nat.le_of_not_lt fun hlt => ?_⟩
        have := hs .push trivial
        simp [TConn.step, hh, Conn.step, hr, hlt] at this
  by_cases hst : x.conn.stage = .run
  · left
    have hat : x.conn.atSelect = true := by simp [Conn.atSelect, hst, hout]
    have hq : x.conn.inq = [] := by
      cases hq : x.conn.inq with
      | nil => rfl
      | cons f q => exact (own (e := .frame true true) trivial (by simp [TConn.timerAfter]) (by simp [Conn.step, hat, hq])).elim
    have hd : x.conn.readDone = false := by
      cases hd : x.conn.readDone with
      | false => rfl
      | true => exact (own (e := .readClosed) trivial (by simp [TConn.timerAfter]) (by simp [Conn.step, hat, hq, hd])).elim
    refine ⟨hst, hd, ?_, hq⟩
    rcases hread with e | ⟨_, e⟩ | ⟨_, e⟩
    · rw [hd] at e; cases e
    · rw [hq] at e; exact absurd e (by decide)
    · exact e
  · right
    have hcl : x.conn.stage = .closed := by
      have hclean : x.conn.cleanStep = none := by
        cases hc : x.conn.cleanStep with
        | none => rfl
        | some c => exact (own (e := .clean) trivial (by simp [TConn.timerAfter]) (by simp [Conn.step, hout, hc])).elim
      cases hc : x.conn.stage <;> simp [Conn.cleanStep, hc] at hclean
      · exact absurd hc hst
      · exact (own (e := .cleanUnsub (x.conn.subs.map (·.2))) trivial (by simp [TConn.timerAfter])
          (by simp [Conn.step, hout, hc, List.isPerm_iff.2 (.refl _)])).elim
      · rfl
    refine ⟨hcl, ?_⟩
    rcases hread with e | e | ⟨e1, e2⟩
    · exact .inl e
    · exact .inr e
    · have := hs .fail hcl
      simp [TConn.step, TConn.reading, e1, e2, Conn.step] at this

/-- `readLoop` is left with a frame for which there is no room. -/
def LeftBehind (f : Frame) (x : TConn) : Prop :=
  x.conn.stage = .closed ∧ x.conn.readDone = false ∧ x.pending = some f ∧ maxPending ≤ x.conn.inq.length

theorem leftBehind_step {cfg : Config} {f : Frame} {x y : TConn} {e : TConn.Ev} (h : LeftBehind f x) (hs : x.step cfg e = some y) : LeftBehind f y := by
  obtain ⟨h1, h2, h3, h4⟩ := h
  have hat : x.conn.atSelect = false := by simp [Conn.atSelect, h1]
  have hrd : x.reading = false := by simp [TConn.reading, h3]
  cases e with
  | delay d => simp only [TConn.step, Option.some.injEq] at hs; subst hs; exact ⟨h1, h2, h3, h4⟩
  | bytes => simp [TConn.step, hrd] at hs
  | item g => simp [TConn.step, hrd] at hs
  | push => simp [TConn.step, h3, Conn.step, h2, show ¬ x.conn.inq.length < maxPending by omega] at hs
  | expire => simp [TConn.step, hrd] at hs
  | fail => simp [TConn.step, hrd] at hs
  | step e =>
    have hq : ∀ {c : Conn}, x.conn.step cfg e = some c → x.timerAfter e ≠ none → c.stage = .closed ∧ c.readDone = false ∧ maxPending ≤ c.inq.length := by
      intro c hc ht
      cases e with
      | recv g => simp [TConn.timerAfter] at ht
      | readErr => simp [TConn.timerAfter] at ht
      | clean => simp only [Conn.step, Conn.cleanStep, h1] at hc; split at hc <;> cases hc
      | cleanUnsub o => simp [Conn.step, h1] at hc
      | flushed =>
        simp only [Conn.step] at hc
        split at hc
        · cases hc; exact ⟨h1, h2, h4⟩
        · cases hc
      | setFrame | setInList => cases hc; exact ⟨h1, h2, h4⟩
      | pushSub | pushTopic =>
        simp only [Conn.step] at hc
        split at hc
        · cases hc; exact ⟨h1, h2, h4⟩
        · cases hc
      | _ => simp [Conn.step, hat] at hc
    simp only [TConn.step] at hs
    split at hs
    · rename_i t c ht hc
      obtain ⟨a, b, d⟩ := hq hc (by rw [ht]; simp)
      cases hs
      unfold TConn.arm
      split <;> exact ⟨a, b, h3, d⟩
    · cases hs

theorem leftBehind_run {cfg : Config} {f : Frame} : ∀ {es : List TConn.Ev} {x y : TConn}, LeftBehind f x → x.run cfg es = some y → LeftBehind f y
  | [], x, y, h, hr => by simp only [TConn.run, Option.some.injEq] at hr; exact hr ▸ h
  | e :: es, x, y, h, hr => by
    simp only [TConn.run] at hr
    split at hr
    · cases hr
    · rename_i z h1
      exact leftBehind_run (leftBehind_step h h1) hr

/-- **C87**, exactly: when the clean-up is complete, `readLoop` can end, unless it has a frame in its hand and `readChannel` is full; and then it never ends, whatever happens. -/
theorem C87_server_exact {cfg : Config} {x : TConn} (hc : x.conn.stage = .closed) :
    (∃ es y, x.run cfg es = some y ∧ y.conn.readDone = true) ↔ (x.conn.readDone = true ∨ x.pending = none ∨ x.conn.inq.length < maxPending) := by
  constructor
  · rintro ⟨es, y, h1, h2⟩
    cases hr : x.conn.readDone with
    | true => exact .inl rfl
    | false =>
      right
      cases hh : x.pending with
      | none => exact .inl rfl
      | some f =>
        right
        apply Nat.lt_of_not_le
        intro hcap
        have := leftBehind_run (f := f) ⟨hc, hr, hh, hcap⟩ h1
        rw [this.2.1] at h2
        cases h2
  · intro hx
    cases hr : x.conn.readDone with
    | true => exact ⟨[], x, rfl, hr⟩
    | false =>
      cases hh : x.pending with
      | none => exact ⟨[.fail], _, by simp [TConn.run, TConn.step, TConn.reading, hh, Conn.step, hr]; rfl, rfl⟩
      | some f =>
        have hlt : x.conn.inq.length < maxPending := by
          rcases hx with e | e | e
          · rw [hr] at e; cases e
          · rw [hh] at e; cases e
          · exact e
        have h1 : x.step cfg .push = some (({ x.note [.pushed] with conn := { x.conn with inq := x.conn.inq ++ [f] }, pending := none } : TConn).setDeadline) := by
          simp [TConn.step, hh, Conn.step, hr, hlt]
        refine ⟨[.push, .fail], { ({ x.note [.pushed] with conn := { x.conn with inq := x.conn.inq ++ [f] }, pending := none } : TConn).setDeadline with
          conn := { x.conn with inq := x.conn.inq ++ [f], readDone := true } }, ?_, rfl⟩
        simp only [TConn.run, h1]
        simp [TConn.step, TConn.reading, TConn.setDeadline, Conn.step, hr]

/-! ## The claim is false as worded -/

namespace LeakEx
open TimerEx

def flood : Nat → List TConn.Ev
  | 0 => [.item (some send)]
  | n + 1 => .item (some send) :: .push :: flood n
def cleaning : List TConn.Ev :=
  [.step .clean, .step (.cleanUnsub []), .step .clean, .step .clean, .step .clean, .step .clean, .step .flushed, .step .clean, .step .clean]
/-- The client sends CONNECT a second time, for which the server gives up the connection, and does not stop sending: seventeen more frames. -/
def floodRun : List TConn.Ev :=
  connFrame hello ++ [.item (some hello), .push, .step (.frame true true)] ++ flood 16 ++ cleaning
def floodEnd : TConn := ((TConn.init 0).run sampleCfg floodRun).getD (.init 0)
/-- The client sends CONNECT a second time, for which the server gives up the connection, and two more. -/
def quietRun : List TConn.Ev :=
  connFrame hello ++ [.item (some hello), .push, .step (.frame true true)] ++ flood 1 ++ cleaning
def quietEnd : TConn := ((TConn.init 0).run sampleCfg quietRun).getD (.init 0)

theorem flood_run : (TConn.init 0).run sampleCfg floodRun = some floodEnd := by decide +kernel
theorem quiet_run : (TConn.init 0).run sampleCfg quietRun = some quietEnd := by decide +kernel
theorem flood_left : LeftBehind send floodEnd := ⟨by decide +kernel, by decide +kernel, by decide +kernel, by decide +kernel⟩
end LeakEx

open LeakEx in
/-- **C87** is false as worded on the server: the client has sent CONNECT twice, and seventeen frames that the server will not look at. The clean-up is complete and the connection closed, and whatever happens, `readLoop` does not end:
it waits in `c.readChannel <- f` (`server/client/conn.go:181`) with no `select`, and nothing receives. The goroutine, the connection and up to seventeen frames are never freed. -/
theorem C87_server_false : ∃ es x, (TConn.init 0).run sampleCfg es = some x ∧ x.conn.stage = .closed ∧ ∀ cfg fs y, x.run cfg fs = some y → y.conn.stage = .closed ∧ y.conn.readDone = false :=
  ⟨floodRun, floodEnd, flood_run, by decide +kernel, fun _ _ _ h => let l := leftBehind_run flood_left h; ⟨l.1, l.2.1⟩⟩

/-! ## The theorems say something -/

namespace LeakEx
open TimerEx

theorem rest_closed {cfg : Config} {x : TConn} (h1 : x.conn.stage = .closed) (h2 : x.conn.outbox = []) (h3 : x.conn.readDone = true ∨ (∃ f, LeftBehind f x)) :
    ∀ e, Spec.ConnOwn x e → x.step cfg e = none := by
  have hat : x.conn.atSelect = false := by simp [Conn.atSelect, h1]
  intro e he
  cases e with
  | push =>
    rcases h3 with h | ⟨f, _, h, hf, hl⟩
    · cases hp : x.pending <;> simp [TConn.step, hp, Conn.step, h]
    · simp [TConn.step, hf, Conn.step, h, show ¬ x.conn.inq.length < maxPending by omega]
  | fail =>
    rcases h3 with h | ⟨f, _, h, hf, hl⟩
    · simp [TConn.step, TConn.reading, h]
    · simp [TConn.step, TConn.reading, hf]
  | step e =>
    cases e <;> first
      | exact he.elim
      | simp [TConn.step, TConn.timerAfter, Conn.step, Conn.cleanStep, h1, h2, hat]
  | _ => exact he.elim

/-- With two frames there is room: `readLoop` sees that the connection is closed, and ends. -/
def endEnd : TConn := (quietEnd.run sampleCfg [.push, .fail]).getD quietEnd
example : quietEnd.run sampleCfg [.push, .fail] = some endEnd ∧ endEnd.conn.readDone = true := by decide +kernel
example : ∃ es y, quietEnd.run sampleCfg es = some y ∧ y.conn.readDone = true := (C87_server_exact (by decide +kernel)).2 (.inr (.inr (by decide +kernel)))
example : ¬ ∃ es y, floodEnd.run sampleCfg es = some y ∧ y.conn.readDone = true := fun h => by
  have := (C87_server_exact (by decide +kernel)).1 h
  revert this; decide +kernel

/-- The three ways to be at rest: all have ended; `readLoop` is left; the connection is alive and nothing happens. -/
example := C87_server_partial (cfg := sampleCfg) (x := endEnd) (by decide +kernel) (rest_closed (by decide +kernel) (by decide +kernel) (.inl (by decide +kernel)))
example := C87_server_partial (cfg := sampleCfg) (x := floodEnd) (by decide +kernel) (rest_closed (by decide +kernel) (by decide +kernel) (.inr ⟨_, flood_left⟩))
example := C87_server_partial (cfg := sampleCfg) (x := plainEnd) (by decide +kernel) (by
  have h1 : plainEnd.conn.inq = [] := by decide +kernel
  have h2 : plainEnd.conn.readDone = false := by decide +kernel
  have h3 : plainEnd.pending = none := by decide +kernel
  have h4 : plainEnd.conn.writeCh = [] := by decide +kernel
  have h5 : plainEnd.conn.subCh = [] := by decide +kernel
  have h6 : plainEnd.conn.outbox = [] := by decide +kernel
  have h7 : plainEnd.conn.stage = .run := by decide +kernel
  intro e he
  cases e with
  | push => simp [TConn.step, h3]
  | fail => exact absurd he (by rw [Spec.ConnOwn, h7]; decide)
  | step e =>
    cases e <;> first
      | exact he.elim
      | (simp [TConn.step, TConn.timerAfter, Conn.step, Conn.cleanStep, h1, h2, h4, h5, h6, h7]; done)
  | _ => exact he.elim)
end LeakEx
end Stomp.Server
