import Verif.Spec.Session
import Verif.Proofs.Server.GateInv
import Verif.Props.Server.Basics
import Verif.Props.HeartBeat
/-! # The server connection implements the session specification -/
namespace Stomp.Server
open Stomp

theorem accepts_iff (cfg : Config) (f : Frame) : Spec.accepts cfg.auth f ↔ ∃ v cx cy, Accepts cfg f v cx cy := by
  constructor
  · rintro ⟨h1, h2, h3, ⟨av, h4, h5⟩, h6⟩
    have hv : ∃ v, determineVersion f = .ok v ∧ v ≠ b!"1.0" := by
      rw [C31_highest f av h1 h4]
      unfold Spec.highest
      by_cases h12 : b!"1.2" ∈ splitOn 44 av
      · rw [if_pos h12]; exact ⟨_, rfl, by decide⟩
      · rw [if_neg h12, if_pos (h5.resolve_right h12)]; exact ⟨_, rfl, by decide⟩
    obtain ⟨v, hv, hn⟩ := hv
    have hb : ∃ cx cy, getHeartBeat f = .ok (cx, cy) := by
      rcases h6 with h6 | ⟨a, b, n, m, h6, h7, h8, h9, h10⟩
      · exact ⟨0, 0, (C10_server_parse f h1 0 0).2 (Or.inl ⟨h6, rfl, rfl⟩)⟩
      · exact ⟨n, m, (C10_server_parse f h1 n m).2 (Or.inr ⟨a, b, h6, h7, h8, h9, h10⟩)⟩
    obtain ⟨cx, cy, hb⟩ := hb
    refine ⟨v, cx, cy, h1, h2, ?_, hv, hn, hb⟩
    rw [get_eq, get_eq]; exact h3
  · rintro ⟨v, cx, cy, h1, h2, h3, h4, h5, h6⟩
    refine ⟨h1, h2, ?_, ?_, ?_⟩
    · rw [get_eq, get_eq] at h3; exact h3
    · cases ha : Stomp.Spec.firstValue f.header b!"accept-version" with
      | none =>
        exfalso
        rw [C31_absent f ha] at h4
        rcases h1 with h1 | h1
        · rw [if_pos h1] at h4; injection h4 with h4; exact h5 h4.symm
        · rw [if_neg (by rw [h1]; decide), if_pos h1] at h4; cases h4
      | some av =>
        refine ⟨av, ha, ?_⟩
        rw [C31_highest f av h1 ha] at h4
        unfold Spec.highest at h4
        by_cases h12 : b!"1.2" ∈ splitOn 44 av
        · exact Or.inr h12
        · by_cases h11 : b!"1.1" ∈ splitOn 44 av
          · exact Or.inl h11
          · exfalso
            rw [if_neg h12, if_neg h11] at h4
            split at h4
            · rename_i v' hv'
              injection h4 with h4
              split at hv'
              · injection hv' with hv'; exact h5 (h4.symm.trans hv'.symm)
              · cases hv'
            · cases h4
    · rcases (C10_server_parse f h1 cx cy).1 h6 with ⟨h, _, _⟩ | ⟨a, b, h⟩
      · exact Or.inl h
      · exact Or.inr ⟨a, b, cx, cy, h⟩

theorem clean_eq (f : Frame) : strip Hdr.transaction (strip Hdr.receipt f) = Spec.clean f := by
  have key : ∀ h : Header, (h.del Hdr.receipt).del Hdr.transaction =
      h.filter (fun e => decide (e.1 ≠ b!"receipt" ∧ e.1 ≠ b!"transaction")) := by
    intro h
    induction h with
    | nil => rfl
    | cons e h ih =>
      obtain ⟨k, v⟩ := e
      have hr : Hdr.receipt = b!"receipt" := rfl
      have ht : Hdr.transaction = b!"transaction" := rfl
      rw [List.filter_cons, ← ih]
      by_cases h1 : k = b!"receipt"
      · subst h1; simp [Header.del, hr]
      · by_cases h2 : k = b!"transaction"
        · subst h2; simp [Header.del, hr, ht]
        · simp [Header.del, hr, ht, h1, h2]
  unfold strip Spec.clean
  simp only [key]

theorem clean_of_noTx {f : Frame} (h : Spec.hdr f b!"transaction" = none) : strip Hdr.receipt f = Spec.clean f := by
  rw [← clean_eq]
  have : Stomp.Spec.firstValue (strip Hdr.receipt f).header Hdr.transaction = none := by
    simp only [strip, firstValue_del]; rw [if_neg (by decide)]; exact h
  show _ = { strip Hdr.receipt f with header := (strip Hdr.receipt f).header.del Hdr.transaction }
  rw [del_of_firstValue_none _ _ this]

theorem ackId_ok (f : Frame) (n : Nat) : Conn.ackId f = .ok n ↔ Spec.names f n := by
  unfold Conn.ackId Spec.names Spec.hdr
  rw [contains_eq, contains_eq]
  show _ ↔ ∃ s, (Stomp.Spec.firstValue f.header Hdr.ack = some s ∨ Stomp.Spec.firstValue f.header Hdr.ack = none ∧
    Stomp.Spec.firstValue f.header Hdr.messageId = some s) ∧ _
  have key : ∀ s, (match parseUint 64 s with | none => (Except.error (Err.parse s) : Except Err Nat) | some n => .ok n) = .ok n ↔
      Stomp.Spec.Numeral s n ∧ n < 2 ^ 64 := by
    intro s
    rw [← parseUint_eq_some]
    cases parseUint 64 s <;> simp
  cases h1 : Stomp.Spec.firstValue f.header Hdr.ack with
  | some a =>
    simp only
    refine Iff.trans (key a) ?_
    constructor
    · intro h; exact ⟨a, Or.inl rfl, h⟩
    · rintro ⟨s, h | h, h'⟩
      · injection h with h; subst h; exact h'
      · cases h.1
  | none =>
    simp only
    cases h2 : Stomp.Spec.firstValue f.header Hdr.messageId with
    | none =>
      simp only
      constructor
      · intro h; cases h
      · rintro ⟨s, h | h, h'⟩
        · cases h
        · cases h.2
    | some a =>
      simp only
      refine Iff.trans (key a) ?_
      constructor
      · intro h; exact ⟨a, Or.inr ⟨trivial, rfl⟩, h⟩
      · rintro ⟨s, h | h, h'⟩
        · cases h
        · injection h.2 with h; subst h; exact h'

theorem ackId_some (f : Frame) : (Conn.ackId f).toOption.isSome ↔ ∃ n, Spec.names f n := by
  constructor
  · intro h
    cases hc : Conn.ackId f with
    | error e => rw [hc] at h; cases h
    | ok n => exact ⟨n, (ackId_ok f n).1 hc⟩
  · rintro ⟨n, h⟩
    rw [(ackId_ok f n).2 h]; rfl

/-- Steps other than the processing of a frame. -/
structure Quiet (c c' : Conn) : Prop where
  me : c'.me = c.me
  hist : c'.hist = c.hist
  effective : c'.effective = c.effective
  connected : c'.connected = c.connected
  version : c'.version = c.version
  writeTimeout : c'.writeTimeout = c.writeTimeout
  sent : c'.sent = c.sent
  acked : c'.acked = c.acked
  wfail : c.wfail = true → c'.wfail = true
  stage : c.stage ≠ .run → c'.stage ≠ .run
  tx : c'.tx = c.tx ∨ c'.stage ≠ .run
  subs : c'.subs = c.subs ∨ c'.stage ≠ .run
  panic : .panic ∈ c.outbox → .panic ∈ c'.outbox
  log : ∃ l, c'.log = c.log ++ l ∧ ∀ m, .enqueue m ∉ l
  heap : c'.heap.map (fun s => (s.id, s.dest, s.ack, s.msgId)) = c.heap.map (fun s => (s.id, s.dest, s.ack, s.msgId))

theorem static_modify (heap : List Sub) (i : Nat) (g : Sub → Sub)
    (hg : ∀ s, ((g s).id, (g s).dest, (g s).ack, (g s).msgId) = (s.id, s.dest, s.ack, s.msgId)) :
    (heap.modify i g).map (fun s => (s.id, s.dest, s.ack, s.msgId)) = heap.map (fun s => (s.id, s.dest, s.ack, s.msgId)) := by
  induction heap generalizing i with
  | nil => cases i <;> rfl
  | cons s h ih =>
    cases i with
    | zero => show _ :: _ = _ :: _; exact congrArg (· :: _) (hg s)
    | succ i => show _ :: _ = _ :: _; exact congrArg _ (ih i)

theorem static_putFrame (heap : List Sub) (i : Nat) (m : Option Msg) :
    (putFrame heap i m).map (fun s => (s.id, s.dest, s.ack, s.msgId)) = heap.map (fun s => (s.id, s.dest, s.ack, s.msgId)) :=
  static_modify heap i _ (fun _ => rfl)

theorem static_putInList (heap : List Sub) (i : Nat) (b : Bool) :
    (putInList heap i b).map (fun s => (s.id, s.dest, s.ack, s.msgId)) = heap.map (fun s => (s.id, s.dest, s.ack, s.msgId)) :=
  static_modify heap i _ (fun _ => rfl)

theorem static_foldl (heap : List Sub) (l : List Nat) (g : List Sub → Nat → List Sub)
    (hg : ∀ h i, (g h i).map (fun s => (s.id, s.dest, s.ack, s.msgId)) = h.map (fun s => (s.id, s.dest, s.ack, s.msgId))) :
    (l.foldl g heap).map (fun s => (s.id, s.dest, s.ack, s.msgId)) = heap.map (fun s => (s.id, s.dest, s.ack, s.msgId)) := by
  induction l generalizing heap with
  | nil => rfl
  | cons i l ih => rw [List.foldl_cons, ih, hg]

/-- Is the step the processing of a frame? -/
def isFrame : Conn.Ev → Bool
  | .frame _ _ => true
  | _ => false

theorem quiet_step {cfg : Config} {c : Conn} {e : Conn.Ev} {c' : Conn} (h : Step cfg c e c') (hn : isFrame e = false) :
    Quiet c c' := by
  have nl : ∃ l, c.log = c.log ++ l ∧ ∀ m, Req.enqueue m ∉ l := ⟨[], by simp, by simp⟩
  cases h with
  | frame => cases hn
  | recv f => exact ⟨rfl, rfl, rfl, rfl, rfl, rfl, rfl, rfl, id, id, Or.inl rfl, Or.inl rfl, id, nl, rfl⟩
  | readErr => exact ⟨rfl, rfl, rfl, rfl, rfl, rfl, rfl, rfl, id, id, Or.inl rfl, Or.inl rfl, id, nl, rfl⟩
  | readClosed => exact ⟨rfl, rfl, rfl, rfl, rfl, rfl, rfl, rfl, id, fun _ => by simp, Or.inr (by simp), Or.inl rfl, id, nl, rfl⟩
  | wrOk => exact ⟨rfl, rfl, rfl, rfl, rfl, rfl, rfl, rfl, id, id, Or.inl rfl, Or.inl rfl, id, nl, rfl⟩
  | wrErr => exact ⟨rfl, rfl, rfl, rfl, rfl, rfl, rfl, rfl, id, fun _ => by simp, Or.inr (by simp), Or.inl rfl, id, nl, rfl⟩
  | wrFail => exact ⟨rfl, rfl, rfl, rfl, rfl, rfl, rfl, rfl, fun _ => rfl, fun _ => by simp, Or.inr (by simp), Or.inl rfl, id, nl, rfl⟩
  | subGone => exact ⟨rfl, rfl, rfl, rfl, rfl, rfl, rfl, rfl, id, id, Or.inl rfl, Or.inl rfl, fun h => by simp [Conn.emit, h], ⟨_, rfl, by simp⟩, rfl⟩
  | subNil => exact ⟨rfl, rfl, rfl, rfl, rfl, rfl, rfl, rfl, id, id, Or.inl rfl, Or.inl rfl, fun h => by simp, nl, rfl⟩
  | subFail => exact ⟨rfl, rfl, rfl, rfl, rfl, rfl, rfl, rfl, fun _ => rfl, fun _ => by simp, Or.inr (by simp), Or.inl rfl, id, nl, static_putFrame _ _ _⟩
  | subAuto => exact ⟨rfl, rfl, rfl, rfl, rfl, rfl, rfl, rfl, id, id, Or.inl rfl, Or.inl rfl, fun h => by simp [Conn.emit, h], ⟨_, rfl, by simp⟩, (static_putFrame _ _ _).trans (static_putFrame _ _ _)⟩
  | subPanic => exact ⟨rfl, rfl, rfl, rfl, rfl, rfl, rfl, rfl, id, id, Or.inl rfl, Or.inl rfl, fun h => by simp, nl, static_putFrame _ _ _⟩
  | subAdd => exact ⟨rfl, rfl, rfl, rfl, rfl, rfl, rfl, rfl, id, id, Or.inl rfl, Or.inl rfl, id, nl, (static_putInList _ _ _).trans (static_putFrame _ _ _)⟩
  | timerOk => exact ⟨rfl, rfl, rfl, rfl, rfl, rfl, rfl, rfl, id, id, Or.inl rfl, Or.inl rfl, id, nl, rfl⟩
  | timerFail => exact ⟨rfl, rfl, rfl, rfl, rfl, rfl, rfl, rfl, fun _ => rfl, fun _ => by simp, Or.inr (by simp), Or.inl rfl, id, nl, rfl⟩
  | discard => exact ⟨rfl, rfl, rfl, rfl, rfl, rfl, rfl, rfl, id, id, Or.inl rfl, Or.inl rfl, id, nl, rfl⟩
  | discardEnd st ho hw hs =>
    have : st ≠ .run := by rcases hs with ⟨_, rfl⟩ | ⟨_, rfl⟩ | ⟨_, rfl⟩ <;> simp
    exact ⟨rfl, rfl, rfl, rfl, rfl, rfl, rfl, rfl, id, fun _ => this, Or.inl rfl, Or.inl rfl, id, nl, rfl⟩
  | acklist =>
    exact ⟨rfl, rfl, rfl, rfl, rfl, rfl, rfl, rfl, id, fun _ => by simp [Conn.emit], Or.inl rfl, Or.inl rfl,
      fun h => by simp [Conn.emit, h], ⟨_, rfl, by simp⟩, static_foldl _ _ _ (fun h i => static_putInList h i false)⟩
  | drain => exact ⟨rfl, rfl, rfl, rfl, rfl, rfl, rfl, rfl, id, id, Or.inl rfl, Or.inl rfl, fun h => by simp [Conn.emit, h], ⟨_, rfl, by simp⟩, rfl⟩
  | drainEnd st ho hl hs =>
    have : st ≠ .run := by rcases hs with ⟨_, rfl⟩ | ⟨_, rfl⟩ <;> simp
    exact ⟨rfl, rfl, rfl, rfl, rfl, rfl, rfl, rfl, id, fun _ => this, Or.inl rfl, Or.inl rfl, id, nl, rfl⟩
  | announce => exact ⟨rfl, rfl, rfl, rfl, rfl, rfl, rfl, rfl, id, fun _ => by simp [Conn.emit], Or.inl rfl, Or.inl rfl, fun h => by simp [Conn.emit, h], ⟨_, rfl, by simp⟩, rfl⟩
  | unsub => exact ⟨rfl, rfl, rfl, rfl, rfl, rfl, rfl, rfl, id, fun _ => by simp [Conn.emit], Or.inl rfl, Or.inr (by simp [Conn.emit]), fun h => by simp [Conn.emit, h], ⟨_, rfl, by simp⟩, rfl⟩
  | flushed r o ho =>
    refine ⟨rfl, rfl, rfl, rfl, rfl, rfl, rfl, rfl, id, id, Or.inl rfl, Or.inl rfl, fun h => ?_, nl, rfl⟩
    rw [ho] at h; simpa using h
  | setFrame => exact ⟨rfl, rfl, rfl, rfl, rfl, rfl, rfl, rfl, id, id, Or.inl rfl, Or.inl rfl, id, nl, static_putFrame _ _ _⟩
  | setInList => exact ⟨rfl, rfl, rfl, rfl, rfl, rfl, rfl, rfl, id, id, Or.inl rfl, Or.inl rfl, id, nl, static_putInList _ _ _⟩
  | pushSub => exact ⟨rfl, rfl, rfl, rfl, rfl, rfl, rfl, rfl, id, id, Or.inl rfl, Or.inl rfl, id, nl, rfl⟩
  | pushTopic => exact ⟨rfl, rfl, rfl, rfl, rfl, rfl, rfl, rfl, id, id, Or.inl rfl, Or.inl rfl, id, nl, rfl⟩

end Stomp.Server
