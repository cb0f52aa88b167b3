import Verif.Proofs.Server.Timer
import Verif.Proofs.Server.Writes
import Verif.Props.Server.Session
/-! # C58: the heart-beats of the server -/
namespace Stomp.Server
open Stomp

/-- **C58**, transmissions (partial: false as worded, see `C58_false`). A connection has announced that it will send something at least every `a` milliseconds. While it is up, it has written something, or
taken a message whose subscription has ended, within the last `a` milliseconds, not counting the time for which `processLoop` has been late since. -/
theorem C58_transmits_partial {cfg : Config} {me : Nat} {es : List TConn.Ev} {x : TConn} (h : (TConn.init me).run cfg es = some x) (he : TEnvOk es)
    {a b : Nat} (ha : Spec.Announced x.conn a b) (hpos : 0 < a) (hu : Spec.Up x.conn) :
    ∃ t l o, (t, l, o) ∈ x.log ∧ (o = .gone ∨ ∃ w, o = .wrote w) ∧ t ≤ x.now ∧ l ≤ x.late ∧ x.now ≤ t + Spec.ms a + (x.late - l) := by
  obtain ⟨_, h1, _⟩ := announced_eq (told_run he h) ha
  subst h1
  obtain ⟨t, l, o, h2, h3, h4, h5, _⟩ := (timer_run he h).2 hu hpos
  exact ⟨t, l, o, h2, h3, (dead_run he h).past _ _ _ h2, h4, h5⟩

/-- **C58**, the writes in the log are the writes of the connection. -/
theorem C58_log {cfg : Config} {me : Nat} {es : List TConn.Ev} {x : TConn} (h : (TConn.init me).run cfg es = some x) (he : TEnvOk es) :
    x.log.filterMap (fun e => match e.2.2 with | .wrote w => some w | _ => none) = x.conn.out := by
  refine tconn_induct (P := fun x => x.log.filterMap (fun e => match e.2.2 with | .wrote w => some w | _ => none) = x.conn.out) ?_ he rfl h
  intro x e x' hg _ hi h
  have nothing : ∀ (l : List TObs), (∀ o ∈ l, ∀ w, o ≠ .wrote w) → ((x.log ++ l.map (fun o => (x.now, x.late, o))).filterMap (fun e => match e.2.2 with | .wrote w => some w | _ => none)) = x.conn.out := by
    intro l hl
    rw [List.filterMap_append, hi]
    have : (l.map (fun o => (x.now, x.late, o))).filterMap (fun e => match e.2.2 with | .wrote w => some w | _ => none) = [] := by
      rw [List.filterMap_eq_nil_iff]
      intro e he
      obtain ⟨o, ho, rfl⟩ := List.mem_map.1 he
      have := hl o ho
      cases o with
      | wrote w => exact absurd rfl (this w)
      | _ => rfl
    rw [this, List.append_nil]
  cases e with
  | delay d => simp only [TConn.step, Option.some.injEq] at h; subst h; exact hi
  | bytes =>
    simp only [TConn.step] at h; split at h <;> simp only [Option.some.injEq, reduceCtorEq] at h
    subst h; exact nothing [.bytes] (by simp)
  | item f =>
    simp only [TConn.step] at h
    split at h
    · split at h <;> simp only [Option.some.injEq] at h <;> subst h
      · exact nothing [.item none] (by simp)
      · exact nothing [.item (some _)] (by simp)
    · cases h
  | push =>
    simp only [TConn.step] at h
    split at h
    · cases h
    · obtain ⟨c, h4, h5⟩ := Option.map_eq_some_iff.1 h
      subst h5
      have h6 := step_of _ _ _ _ h4
      cases h6
      exact nothing [.pushed] (by simp)
  | expire =>
    simp only [TConn.step] at h
    split at h
    · obtain ⟨c, h4, h5⟩ := Option.map_eq_some_iff.1 h
      subst h5
      have h6 := step_of _ _ _ _ h4
      cases h6; exact hi
    · cases h
  | fail =>
    simp only [TConn.step] at h
    split at h
    · obtain ⟨c, h4, h5⟩ := Option.map_eq_some_iff.1 h
      subst h5
      have h6 := step_of _ _ _ _ h4
      cases h6; exact hi
    · cases h
  | step e =>
    simp only [TConn.step] at h
    split at h
    · rename_i tm c h4 h5
      injection h with h; subst h
      rw [arm_log, arm_conn]
      obtain ⟨new, h6, _⟩ := out_tagged hg (step_of _ _ _ _ h5)
      show (x.log ++ (TConn.goneIn x.conn e ++ (c.out.drop x.conn.out.length).map TObs.wrote).map (fun o => (x.now, x.late, o))).filterMap _ = c.out
      rw [h6, List.drop_left, List.map_append, ← List.append_assoc, List.filterMap_append, nothing (TConn.goneIn x.conn e), List.map_map, List.filterMap_map]
      · congr 1
        rename_i h8
        clear h6 h8
        induction new with
        | nil => rfl
        | cons w l ih => exact (List.filterMap_cons_some rfl).trans (congrArg _ ih)
      · intro o ho w hw
        subst hw
        unfold TConn.goneIn at ho
        split at ho
        · split at ho
          · split at ho <;> simp at ho
          · cases ho
        · cases ho
    · cases h

/-- What `processLoop` can do at its `select`. -/
def Spec.LoopStep : Conn.Ev → Prop
  | .frame _ _ => True
  | .readClosed => True
  | .wr _ => True
  | .sub _ => True
  | .timer _ => True
  | _ => False

/-- **C58**, what being late means: time counts only if `processLoop` is not at its `select` (it waits for the processor, or cleans up), or if something it could do there was ready before the time was over. -/
theorem C58_late {cfg : Config} {me : Nat} {es : List TConn.Ev} {x x' : TConn} {d : Nat} (h : (TConn.init me).run cfg es = some x) (he : TEnvOk es)
    (h' : x.step cfg (.delay d) = some x') (hl : x'.late ≠ x.late) :
    x.conn.atSelect = false ∨ ∃ d' y e y', d' < d ∧ x.step cfg (.delay d') = some y ∧ Spec.LoopStep e ∧ y.step cfg (.step e) = some y' := by
  obtain ⟨ht, _⟩ := timer_run he h
  simp only [TConn.step, Option.some.injEq] at h'
  subst h'
  dsimp only at hl
  by_cases hid : x.idle d = true
  · rw [if_pos hid] at hl; exact absurd rfl hl
  · rw [if_neg hid] at hl
    have hd : 0 < d := by omega
    cases hsel : x.conn.atSelect with
    | false => exact Or.inl rfl
    | true =>
      right
      simp only [TConn.idle, decide_eq_true_eq] at hid
      -- a step of the connection that is possible now
      have go : ∀ e c, Spec.LoopStep e → (∀ ok, e ≠ .timer ok) → x.conn.step cfg e = some c →
          ∃ d' y e y', d' < d ∧ x.step cfg (.delay d') = some y ∧ Spec.LoopStep e ∧ y.step cfg (.step e) = some y' := by
        intro e c h1 h2 h3
        have : ∃ y', ({ x with now := x.now + 0, late := if x.idle 0 then x.late else x.late + 0 } : TConn).step cfg (.step e) = some y' := by
          cases e with
          | timer ok => exact absurd rfl (h2 ok)
          | frame ok1 ok2 => simp only [TConn.step, TConn.timerAfter, h3]; exact ⟨_, rfl⟩
          | readClosed => simp only [TConn.step, TConn.timerAfter, h3]; exact ⟨_, rfl⟩
          | wr ok => simp only [TConn.step, TConn.timerAfter, h3]; exact ⟨_, rfl⟩
          | sub ok => simp only [TConn.step, TConn.timerAfter, h3]; exact ⟨_, rfl⟩
          | _ => cases h1
        obtain ⟨y', hy⟩ := this
        exact ⟨0, _, e, y', hd, rfl, h1, hy⟩
      cases hq : x.conn.inq with
      | cons f q =>
        have h1 : ∃ c, x.conn.step cfg (.frame true true) = some c := by simp only [Conn.step, hsel, hq, if_true]; exact ⟨_, rfl⟩
        obtain ⟨c, h1⟩ := h1
        exact go (.frame true true) c trivial (by simp) h1
      | nil =>
        cases hr : x.conn.readDone with
        | true => exact go .readClosed _ trivial (by simp) (by simp only [Conn.step, hsel, hq, hr]; rfl)
        | false =>
          cases hw : x.conn.writeCh with
          | cons m w =>
            have h1 : ∃ c, x.conn.step cfg (.wr true) = some c := by simp only [Conn.step, hsel, hw, if_true]; exact ⟨_, rfl⟩
            obtain ⟨c, h1⟩ := h1
            exact go (.wr true) c trivial (by simp) h1
          | nil =>
            cases hs : x.conn.subCh with
            | cons i l =>
              have h1 : ∃ c, x.conn.step cfg (.sub true) = some c := by simp only [Conn.step, hsel, hs, if_true]; exact ⟨_, rfl⟩
              obtain ⟨c, h1⟩ := h1
              exact go (.sub true) c trivial (by simp) h1
            | nil =>
              cases htm : x.timer with
              | none => exact absurd ⟨hsel, hq, hr, hw, hs, by rw [htm]; simp⟩ hid
              | some w =>
                have hlt : w < x.now + d := by
                  apply Classical.byContradiction
                  intro hn
                  exact hid ⟨hsel, hq, hr, hw, hs, by rw [htm]; intro w' hw'; injection hw' with hw'; omega⟩
                have hpos := ht.set_ (by rw [htm]; simp)
                have h1 : ∃ y', ({ x with now := x.now + (w - x.now), late := if x.idle (w - x.now) then x.late else x.late + (w - x.now) } : TConn).step cfg (.step (.timer true)) = some y' := by
                  have hf : TConn.fired (x.now + (w - x.now)) (some w) = true := decide_eq_true (by omega)
                  simp only [TConn.step, TConn.timerAfter, htm, hf, Conn.step, hsel, Bool.true_and, decide_eq_true hpos, if_true]
                  exact ⟨_, rfl⟩
                obtain ⟨y', h1⟩ := h1
                exact ⟨w - x.now, _, .timer true, y', by omega, rfl, trivial, h1⟩

/-- **C58**, silence of the client: if `readLoop` gives up because of the deadline, the connection has announced that it expects something at least every `b` milliseconds, then `b` is not 0, and no frame and no
heart-beat was completely read in the last `2 * b` milliseconds, nor was `readLoop` waiting to hand over a frame. -/
theorem C58_gives_up {cfg : Config} {me : Nat} {es : List TConn.Ev} {x x' : TConn} (h : (TConn.init me).run cfg es = some x) (he : TEnvOk es)
    {a b : Nat} (ha : Spec.Announced x.conn a b) (h' : x.step cfg .expire = some x') :
    0 < b ∧ ∀ t l o, (t, l, o) ∈ x.log → Spec.Progress o → t + 2 * Spec.ms b ≤ x.now := by
  have hd := dead_run he h
  have hb := rl_announced hd (told_run he h) ha
  simp only [TConn.step] at h'
  split at h'
  · rename_i hc
    simp only [Bool.and_eq_true] at hc
    rcases hd.deadline hc.1 with ⟨_, h2⟩ | ⟨h1, t, l, o, _, _, h2, h3⟩
    · rw [h2] at hc; cases hc.2
    · rw [hb] at h1 h2
      refine ⟨h1, fun t' l' o' hm hp => ?_⟩
      rw [h2] at hc
      have h4 := of_decide_eq_true hc.2
      have h5 := h3 t' l' o' hm hp
      omega
  · cases h'

/-- **C58**, a client that is silent is noticed: if `readLoop` is reading and nothing was completely read in the last `2 * b` milliseconds, it can give up, and then `processLoop`, when it has dealt with the frames
read before, ends the connection. -/
theorem C58_notices {cfg : Config} {me : Nat} {es : List TConn.Ev} {x : TConn} (h : (TConn.init me).run cfg es = some x) (he : TEnvOk es)
    {a b : Nat} (ha : Spec.Announced x.conn a b) (hpos : 0 < b) (hr : x.reading = true) (hs : ∀ t l o, (t, l, o) ∈ x.log → Spec.Progress o → t + 2 * Spec.ms b ≤ x.now) :
    ∃ x', x.step cfg .expire = some x' ∧ (x'.conn.atSelect = true → x'.conn.inq = [] → ∃ x'', x'.step cfg (.step .readClosed) = some x'' ∧ x''.conn.stage = .discard1) := by
  have hd := dead_run he h
  have hb := rl_announced hd (told_run he h) ha
  have hrd := ((reading_iff x).1 hr).1
  rcases hd.deadline hr with ⟨h1, _⟩ | ⟨_, t, l, o, h1, h2, h3, _⟩
  · omega
  · refine ⟨{ x with conn := { x.conn with readDone := true } }, ?_, ?_⟩
    · have hf : TConn.fired x.now x.deadline = true := by
        rw [h3, hb]; exact decide_eq_true (hs t l o h1 h2)
      simp only [TConn.step, hr, hf, Conn.step, hrd]; rfl
    · intro h4 h5
      have h4' : x.conn.atSelect = true := h4
      have h5' : x.conn.inq = [] := h5
      have h6 : ({ x.conn with readDone := true } : Conn).step cfg .readClosed = some ({ x.conn with readDone := true } : Conn).startCleanup := by
        simp only [Conn.step]
        exact if_pos (by rw [Bool.and_eq_true, Bool.and_eq_true]; exact ⟨⟨h4, by rw [h5]; rfl⟩, rfl⟩)
      have h7 : ∃ x'', ({ x with conn := { x.conn with readDone := true } } : TConn).step cfg (.step .readClosed) = some x'' ∧ x''.conn = ({ x.conn with readDone := true } : Conn).startCleanup := by
        simp only [TConn.step, TConn.timerAfter, h6]
        exact ⟨_, rfl, arm_conn _⟩
      obtain ⟨x'', h7, h8⟩ := h7
      exact ⟨x'', h7, by rw [h8]; rfl⟩

/-! ## The claim is false as worded -/

namespace TimerEx

def second : Nat := 1000000000

/-- A first frame with heart-beats every minute in both directions. -/
def hello : Frame :=
  ⟨b!"CONNECT", [(b!"accept-version", b!"1.1"), (b!"login", b!"u"), (b!"passcode", b!"p"), (b!"heart-beat", b!"60000,60000")], []⟩
def send : Frame := ⟨b!"SEND", [(b!"destination", b!"/queue/a")], [1]⟩
def subscribe : Frame := ⟨b!"SUBSCRIBE", [(b!"id", b!"1"), (b!"destination", b!"/queue/a")], []⟩
def unsubscribe : Frame := ⟨b!"UNSUBSCRIBE", [(b!"id", b!"1")], []⟩

/-- The client sends a frame, and the server handles it. -/
def sysFrame (f : Frame) : List Sys.Ev := [.conn 0 (.recv f), .conn 0 (.frame true true), .flush 0, .proc]
def connFrame (f : Frame) : List TConn.Ev := [.item (some f), .push, .step (.frame true true), .step .flushed]

/-- The client subscribes and unsubscribes; the message of the queue has been put into `subChannel` in the meantime and goes back to the queue. -/
def sysRound : List Sys.Ev := sysFrame subscribe ++ [.push] ++ sysFrame unsubscribe ++ [.conn 0 (.sub true), .flush 0, .proc]
def connRound (i : Nat) (m : Msg) : List TConn.Ev :=
  connFrame subscribe ++ [.step (.setFrame i m), .step (.pushSub i)] ++ connFrame unsubscribe ++ [.step (.sub true), .step .flushed, .delay (59 * second)]

def sysRun : List Sys.Ev := [.accept] ++ sysFrame hello ++ sysFrame send ++ sysRound ++ sysRound ++ sysRound ++ sysRound
def sysEnd : Sys := (Sys.init.run sampleCfg sysRun).getD Sys.init
def message : Msg := ⟨⟨0, 0⟩, ⟨b!"MESSAGE", [(b!"destination", b!"/queue/a"), (b!"subscription", b!"1")], [1]⟩⟩
def connRun : List TConn.Ev :=
  connFrame hello ++ connFrame send ++ [.delay (59 * second)] ++ connRound 0 message ++ connRound 1 message ++ connRound 2 message ++ connRound 3 message
def connEnd : TConn := ((TConn.init 0).run sampleCfg connRun).getD (.init 0)

/-- The client sends one large frame slowly: pieces of it arrive after 59, 118 and 120 seconds. -/
def slowRun : List TConn.Ev :=
  connFrame hello ++ [.delay (59 * second), .bytes, .delay (1 * second), .step (.timer true), .delay (58 * second), .bytes, .delay (2 * second), .bytes]
def slowEnd : TConn := ((TConn.init 0).run sampleCfg slowRun).getD (.init 0)

/-- The server with time to spare: it writes CONNECTED, and two heart-beats a minute apart. -/
def plainRun : List TConn.Ev :=
  connFrame hello ++ [.delay (60 * second), .step (.timer true), .delay (30 * second), .bytes, .item none, .delay (30 * second), .step (.timer true), .delay (10 * second)]
def plainEnd : TConn := ((TConn.init 0).run sampleCfg plainRun).getD (.init 0)

/-- The client falls silent after its CONNECT frame; the server sends a heart-beat after a minute. -/
def silentRun : List TConn.Ev :=
  connFrame hello ++ [.delay (60 * second), .step (.timer true), .delay (60 * second)]
def silentEnd : TConn := ((TConn.init 0).run sampleCfg silentRun).getD (.init 0)

/-- What the CONNECTED frame of these executions announces. -/
theorem announced {x : TConn} (h : (x.conn.out.head?.bind (·.frame)).map (fun g => (g.command, Spec.hdr g b!"heart-beat")) = some (b!"CONNECTED", some b!"60000,60000")) :
    Spec.Announced x.conn 60000 60000 := by
  cases ho : x.conn.out with
  | nil => rw [ho] at h; cases h
  | cons w l =>
    obtain ⟨f, t⟩ := w
    cases f with
    | none => rw [ho] at h; cases h
    | some g =>
      rw [ho] at h
      simp only [List.head?_cons, Option.bind_some, Option.map_some, Option.some.injEq, Prod.mk.injEq] at h
      have n : Stomp.Spec.Numeral b!"60000" 60000 := ⟨by decide, by decide, by decide⟩
      exact ⟨⟨some g, t⟩, by rw [ho]; exact List.mem_cons_self, g, rfl, h.1, b!"60000", b!"60000", h.2, n, n⟩

theorem env {es : List TConn.Ev} (h : es.all (fun e => match e with | .step (.setFrame _ m) => m.frame.command = Cmd.message | .step (.pushTopic m) => m.frame.command = Cmd.message | _ => true) = true) : TEnvOk es := by
  intro e he
  have := List.all_eq_true.1 h _ he
  cases e with
  | setFrame i m => exact of_decide_eq_true (p := m.frame.command = Cmd.message) this
  | pushTopic m => exact of_decide_eq_true (p := m.frame.command = Cmd.message) this
  | _ => trivial

theorem up {x : TConn} (h : (decide (x.conn.stage = .run) && !x.conn.wfail && x.conn.outbox.isEmpty) = true) : Spec.Up x.conn := by
  simp only [Bool.and_eq_true, decide_eq_true_eq, Bool.not_eq_true', List.isEmpty_iff] at h
  exact ⟨h.1.1, h.1.2, by rw [h.2]; exact List.not_mem_nil⟩

end TimerEx

open TimerEx in
/-- **C58** is false as worded. The server has announced a heart-beat every minute, and transmits nothing for almost five: every 59 seconds the client subscribes and unsubscribes, and a message for the subscription that has just
ended stops the timer and is not written (`server/client/conn.go:275-311`). The connection is up and `processLoop` never late, and the connection is the one of an execution of the whole server, in which the frames are sent in the same order. -/
theorem C58_false : ∃ es x, (TConn.init 0).run sampleCfg es = some x ∧ TEnvOk es ∧ Spec.Announced x.conn 60000 60000 ∧ Spec.Up x.conn ∧ x.late = 0 ∧
    (∀ t l w, (t, l, TObs.wrote w) ∈ x.log → t + 4 * Spec.ms 60000 < x.now) ∧
    ∃ ses s, Sys.init.run sampleCfg ses = some s ∧ s.conns[0]? = some x.conn := by
  refine ⟨connRun, connEnd, by decide +kernel, env (by decide +kernel), announced (by decide +kernel), up (by decide +kernel), by decide +kernel, ?_, sysRun, sysEnd, by decide +kernel, by decide +kernel⟩
  have : connEnd.log.all (fun e => match e.2.2 with | .wrote _ => decide (e.1 + 4 * Spec.ms 60000 < connEnd.now) | _ => true) = true := by decide +kernel
  intro t l w h
  have h' := List.all_eq_true.1 this _ h
  exact of_decide_eq_true (p := t + 4 * Spec.ms 60000 < connEnd.now) h'

open TimerEx in
/-- **C58** is false as worded in the other direction too. The server expects something every minute; the client sends a large frame, with pieces arriving 61 seconds ago, 2 seconds ago and just now, and is given up: the deadline is for
the whole frame (`server/client/conn.go:122-128`). -/
theorem C58_slow_false : ∃ es x x', (TConn.init 0).run sampleCfg es = some x ∧ TEnvOk es ∧ Spec.Announced x.conn 60000 60000 ∧ Spec.Up x.conn ∧
    (∃ t l, (t, l, TObs.bytes) ∈ x.log ∧ t = x.now) ∧ (∃ t l, (t, l, TObs.bytes) ∈ x.log ∧ t + 2 * second = x.now) ∧ (∃ t l, (t, l, TObs.bytes) ∈ x.log ∧ t + 61 * second = x.now) ∧
    x.step sampleCfg .expire = some x' ∧ x'.conn.readDone = true := by
  refine ⟨slowRun, slowEnd, (slowEnd.step sampleCfg .expire).getD slowEnd, by decide +kernel, env (by decide +kernel), announced (by decide +kernel), up (by decide +kernel),
    ⟨120 * second, 0, by decide +kernel, by decide +kernel⟩, ⟨118 * second, 0, by decide +kernel, by decide +kernel⟩, ⟨59 * second, 0, by decide +kernel, by decide +kernel⟩, by decide +kernel, by decide +kernel⟩

/-! ## The theorems say something -/

namespace TimerEx

theorem plain_run : (TConn.init 0).run sampleCfg plainRun = some plainEnd := by decide +kernel
theorem silent_run : (TConn.init 0).run sampleCfg silentRun = some silentEnd := by decide +kernel

/-- Two heart-beats, each a minute after the last transmission; the last ten seconds ago. -/
example : (plainEnd.log.filterMap (fun e => match e.2.2 with | .wrote ⟨none, _⟩ => some (e.1 / second) | _ => none)) = [60, 120] ∧ plainEnd.now = 130 * second := by decide +kernel

example : ∃ t l o, (t, l, o) ∈ plainEnd.log ∧ (o = .gone ∨ ∃ w, o = .wrote w) ∧ t ≤ plainEnd.now ∧ l ≤ plainEnd.late ∧ plainEnd.now ≤ t + Spec.ms 60000 + (plainEnd.late - l) :=
  C58_transmits_partial plain_run (env (by decide +kernel)) (announced (by decide +kernel)) (by decide) (up (by decide +kernel))

example : plainEnd.log.filterMap (fun e => match e.2.2 with | .wrote w => some w | _ => none) = plainEnd.conn.out ∧ plainEnd.conn.out.length = 3 :=
  ⟨C58_log plain_run (env (by decide +kernel)), by decide +kernel⟩

/-- Fifty seconds after the last heart-beat but one the timer has not fired; a delay of a minute makes the loop late, and the timer would have been ready before its end. -/
example : plainEnd.conn.atSelect = false ∨ ∃ d' y e y', d' < 60 * second ∧ plainEnd.step sampleCfg (.delay d') = some y ∧ Spec.LoopStep e ∧ y.step sampleCfg (.step e) = some y' :=
  C58_late (d := 60 * second) (x' := (plainEnd.step sampleCfg (.delay (60 * second))).getD plainEnd) plain_run (env (by decide +kernel)) (by decide +kernel) (by decide +kernel)

/-- A client that has been silent for two minutes is given up … -/
example : 0 < 60000 ∧ ∀ t l o, (t, l, o) ∈ silentEnd.log → Spec.Progress o → t + 2 * Spec.ms 60000 ≤ silentEnd.now :=
  C58_gives_up (a := 60000) (x' := (silentEnd.step sampleCfg .expire).getD silentEnd) silent_run (env (by decide +kernel)) (announced (by decide +kernel)) (by decide +kernel)

/-- … and one that sent a heart-beat 40 seconds ago is not. -/
example : plainEnd.step sampleCfg .expire = none := by decide +kernel

example : ∃ x', silentEnd.step sampleCfg .expire = some x' ∧ (x'.conn.atSelect = true → x'.conn.inq = [] → ∃ x'', x'.step sampleCfg (.step .readClosed) = some x'' ∧ x''.conn.stage = .discard1) := by
  refine C58_notices silent_run (env (by decide +kernel)) (announced (by decide +kernel)) (by decide) (by decide +kernel) ?_
  have : silentEnd.log.all (fun e => match e.2.2 with | .item _ | .pushed => decide (e.1 + 2 * Spec.ms 60000 ≤ silentEnd.now) | _ => true) = true := by decide +kernel
  intro t l o h hp
  have h' := List.all_eq_true.1 this _ h
  cases o with
  | item f => exact of_decide_eq_true h'
  | pushed => exact of_decide_eq_true h'
  | _ => cases hp

end TimerEx

end Stomp.Server
