import Verif.Spec.Dial
import Verif.Props.Client.Connect
/-!
# Property C85: a failed `Dial` leaves no connection behind; the deadline of the context holds for the handshake and no longer

False: only an address that cannot be split makes `Dial` close the connection it has opened; the deadline holds for reading only, is ignored if the connection is not a `net.Conn`, and stays set if
reading fails.
-/
namespace Stomp.Client
open Stomp

/-- **C85**. The handshake with the network connection in view is that of C12, C14 and C50: the same frame is written, and the outcome is the one for what can be read. -/
theorem C85_handshake (deadline : Option Nat) (opts : List ConnOpt) (c : Net) :
    (connectCtx deadline opts c).2 =
      (connect opts (if c.isNetConn then c.remote else none) c.writes (c.readable (if c.isNetConn then deadline else none))).2 ∧
    (connectCtx deadline opts c).1.filterMap (fun o => match o with | .write f => some f | _ => none) =
      (connect opts (if c.isNetConn then c.remote else none) c.writes (c.readable (if c.isNetConn then deadline else none))).1.toList := by
  unfold connectCtx connect
  generalize (if c.isNetConn then deadline else none) = armed
  generalize (if c.isNetConn then c.remote else none) = remote
  cases newConnOptions opts with
  | none => exact ⟨rfl, rfl⟩
  | some o =>
    cases hw : c.writes with
    | false => exact ⟨rfl, rfl⟩
    | true =>
      simp only [Bool.not_true, Bool.false_eq_true, if_false]
      generalize readFrame (c.readable armed) = res
      cases armed <;> cases res <;> exact ⟨rfl, rfl⟩

/-- **C85**. After a success the connection is open and has no read deadline. -/
theorem C85_success (deadline : Option Nat) (opts : List ConnOpt) (c : Net) (i : ConnInfo) (h : (connectCtx deadline opts c).2 = .ok i) :
    Spec.isOpen (connectCtx deadline opts c).1 ∧ Spec.deadlineAfter (connectCtx deadline opts c).1 none = none := by
  unfold connectCtx at h ⊢
  generalize (if c.isNetConn then deadline else none) = armed at h ⊢
  generalize (if c.isNetConn then c.remote else none) = remote at h ⊢
  cases ho : newConnOptions opts with
  | none => simp only [ho] at h; cases h
  | some o =>
    cases hw : c.writes with
    | false => simp only [ho, hw] at h; cases h
    | true =>
      simp only [ho, hw, Bool.not_true, Bool.false_eq_true, if_false] at h ⊢
      cases hr : readFrame (c.readable armed) with
      | err e => simp only [hr] at h; cases h
      | heartbeat r => cases armed <;> exact ⟨by simp [Spec.isOpen], rfl⟩
      | frame f r => cases armed <;> exact ⟨by simp [Spec.isOpen], rfl⟩

/-- **C85**, partial. With a `net.Conn` the deadline holds for reading: what comes later has no influence on the outcome. (Missing: writing, and connections of other kinds.) -/
theorem C85_deadline_partial (d : Nat) (opts : List ConnOpt) (a b : Net) (hn : a.isNetConn = true) (h : Spec.AlikeUntil d a b) :
    connectCtx (some d) opts a = connectCtx (some d) opts b := by
  obtain ⟨h1, h2, h3, h4⟩ := h
  have hb : b.isNetConn = true := h1 ▸ hn
  have hr : a.readable (some d) = b.readable (some d) := by simp only [Net.readable, h4]
  unfold connectCtx
  simp only [hn, hb, if_true, h2, h3, hr]

/-- **C85**, partial. The same holds of `Dial`, which always has a `net.Conn`. (Missing: writing.) -/
theorem C85_dial_deadline_partial (d : Nat) (opts : List ConnOpt) (a b : Net) (h : Spec.AlikeUntil d a b) :
    dial (some d) opts (some a) = dial (some d) opts (some b) := by
  obtain ⟨h1, h2, h3, h4⟩ := h
  unfold dial
  dsimp only
  rw [← h2]
  cases a.remote with
  | none => rfl
  | some host =>
    simp only [C85_deadline_partial d (.host host :: opts) { a with isNetConn := true, remote := some host }
      { b with isNetConn := true, remote := some host } rfl ⟨rfl, rfl, h3, h4⟩]

/-- **C85**, partial. `Dial` leaves no connection behind if there is none, or if its remote address cannot be split. (Missing: every other failure, `C85_false_open`.) -/
theorem C85_closed_partial (deadline : Option Nat) (opts : List ConnOpt) (net : Option Net) (e : DialErr) (h : (dial deadline opts net).2 = .error e)
    (he : ∀ c, e ≠ .connect c) : net = none ∨ ¬Spec.isOpen (dial deadline opts net).1 := by
  unfold dial at h ⊢
  cases net with
  | none => exact .inl rfl
  | some c =>
    right
    simp only at h ⊢
    cases hr : c.remote with
    | none => simp [Spec.isOpen]
    | some host =>
      rw [hr] at h
      simp only at h
      split at h <;> cases h
      exact absurd rfl (he _)

/-- **C85 is false**. Whenever the handshake fails, for whatever reason, `Dial` returns no connection and leaves the one it has opened open. -/
theorem C85_false_open (deadline : Option Nat) (opts : List ConnOpt) (net : Option Net) (e : ConnectErr) (h : (dial deadline opts net).2 = .error (.connect e)) :
    net ≠ none ∧ Spec.isOpen (dial deadline opts net).1 := by
  unfold dial at h ⊢
  cases net with
  | none => cases h
  | some c =>
    refine ⟨by simp, ?_⟩
    simp only at h ⊢
    cases hr : c.remote with
    | none => rw [hr] at h; cases h
    | some host =>
      simp only [connectCtx]
      generalize (if ({ c with isNetConn := true } : Net).isNetConn then deadline else none) = armed
      cases newConnOptions (.host host :: opts) with
      | none => simp [Spec.isOpen]
      | some o =>
        simp only
        split
        · simp [Spec.isOpen]
        · split <;> cases armed <;> simp [Spec.isOpen]

/-- **C85 is false**. The CONNECT frame is written without a deadline. -/
theorem C85_false_write (deadline : Option Nat) (opts : List ConnOpt) (c : Net) (pre post : List NetOp) (f : Frame)
    (h : (connectCtx deadline opts c).1 = pre ++ .write f :: post) : pre = [] := by
  have key : ∀ g l, ([.write g] ++ l : List NetOp) = pre ++ .write f :: post → (∀ g', .write g' ∉ l) → pre = [] := by
    intro g l h1 h2
    cases pre with
    | nil => rfl
    | cons x pre =>
      simp only [List.cons_append, List.nil_append, List.cons.injEq] at h1
      exact absurd (by rw [h1.2]; simp) (h2 f)
  unfold connectCtx at h
  generalize (if c.isNetConn then deadline else none) = armed at h
  split at h
  · cases pre <;> cases h
  · simp only at h
    split at h
    · exact key _ [] h (by simp)
    · split at h
      · exact key _ _ (by simpa using h) (by cases armed <;> simp)
      · exact key _ _ (by simpa using h) (by cases armed <;> simp)

/-- **C85 is false**. On a connection that is not a `net.Conn` the deadline is ignored. -/
theorem C85_false_ignored (deadline : Option Nat) (opts : List ConnOpt) (c : Net) (h : c.isNetConn = false) :
    connectCtx deadline opts c = connectCtx none opts c := by
  unfold connectCtx
  simp [h]

/-- A CONNECTED frame that begins to arrive at time 1. -/
def Ex.answer : List (Nat × UInt8) := (writeFrame (some (Frame.new b!"CONNECTED" [(b!"version", b!"1.2")]))).map fun b => (1, b)

/-- **C85 is false**. When reading fails, the deadline of the context stays on the connection, which the caller of `Connect` still has. -/
theorem C85_false_left (d : Nat) (opts : List ConnOpt) (c : Net) (e : ReadErr) (hn : c.isNetConn = true) (h : (connectCtx (some d) opts c).2 = .error (.read e)) :
    Spec.isOpen (connectCtx (some d) opts c).1 ∧ Spec.deadlineAfter (connectCtx (some d) opts c).1 none = some d := by
  unfold connectCtx at h ⊢
  simp only [hn, if_true] at h ⊢
  cases ho : newConnOptions opts with
  | none => simp only [ho] at h; cases h
  | some o =>
    cases hw : c.writes with
    | false => simp only [ho, hw] at h; cases h
    | true =>
      simp only [ho, hw, Bool.not_true, Bool.false_eq_true, if_false] at h ⊢
      cases hr : readFrame (c.readable (some d)) with
      | err e => exact ⟨by simp [Spec.isOpen], rfl⟩
      | heartbeat r => simp only [hr, handleResponse] at h; cases h
      | frame f r =>
        simp only [hr, handleResponse] at h
        repeat' split at h
        all_goals cases h

-- C85_success; C85_deadline_partial: nothing that comes after the answer matters.
example : ∃ i, (connectCtx (some 1) [] ⟨true, some b!"host", true, Ex.answer ++ [(2, 0)]⟩).2 = .ok i ∧ i.version = b!"1.2" ∧
    (connectCtx (some 1) [] ⟨true, some b!"host", true, Ex.answer ++ [(2, 0)]⟩).1.length = 4 ∧
    Spec.AlikeUntil 1 ⟨true, some b!"host", true, Ex.answer ++ [(2, 0)]⟩ ⟨true, some b!"host", true, Ex.answer ++ [(3, 10)]⟩ := by
  refine ⟨_, rfl, by decide +kernel, by decide +kernel, rfl, rfl, rfl, by decide +kernel⟩

-- C85_dial_deadline_partial: `Dial` with the same two connections succeeds; it has set the deadline and taken it back.
example : ∃ i, (dial (some 1) [] (some ⟨true, some b!"host", true, Ex.answer ++ [(2, 0)]⟩)).2 = .ok i ∧ i.version = b!"1.2" ∧
    (dial (some 1) [] (some ⟨true, some b!"host", true, Ex.answer ++ [(2, 0)]⟩)).1.length = 4 := ⟨_, rfl, by decide +kernel, by decide +kernel⟩

-- C85_closed_partial, C85_false_open: an address without host; a server that does not know the version.
example : (dial none [] (some ⟨true, none, true, []⟩)).2 = .error .address := rfl
example : (dial none [] (some ⟨true, some b!"host", true, (writeFrame (some (Frame.new b!"ERROR" [(b!"message", b!"no")]))).map fun b => (1, b)⟩)).2 =
    .error (.connect (.notConnected ⟨b!"ERROR", [(b!"message", b!"no")], []⟩)) := by rfl

-- C85_false_left: the answer comes too late.
example : ∃ e, (connectCtx (some 0) [] ⟨true, some b!"host", true, Ex.answer⟩).2 = .error (.read e) := ⟨_, rfl⟩

-- C85_false_write, C85_false_ignored: the deadline has passed before anything is written, or has no effect.
example : (connectCtx (some 0) [] ⟨true, some b!"host", false, []⟩).1.length = 1 := by decide +kernel
example : ∃ i, (connectCtx (some 0) [] ⟨false, none, true, Ex.answer⟩).2 = .ok i ∧ i.version = b!"1.2" := ⟨_, rfl, by decide +kernel⟩

end Stomp.Client
