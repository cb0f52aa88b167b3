import Verif.Proofs.Server.Gate
/-! # The `Gate` invariant is preserved -/
namespace Stomp.Server
open Stomp

theorem putFrame_nil (i : Nat) (m : Option Msg) : putFrame [] i m = [] := by cases i <;> rfl
theorem putInList_nil (i : Nat) (b : Bool) : putInList [] i b = [] := by cases i <;> rfl

theorem deref_nil (i : Nat) : deref [] i = default := by simp [deref]

theorem Gate.weak {cfg : Config} {c c' : Conn} (h : Gate cfg c) (htx : c'.tx = c.tx ∨ c'.tx = [])
    (hcn : c'.connected = c.connected) (hv : c'.version = c.version) (hs : c'.subs = c.subs ∨ c'.subs = [])
    (he : c'.effective = c.effective)
    (hl : c.subList = [] → c'.subList = [] ∨ c.connected = true) (hse : c'.sent = c.sent) (hm : c'.me = c.me) (hh : c'.hist = c.hist)
    (hp : c.heap = [] → c'.heap = [])
    (hg : ∀ r ∈ c'.log, r ∈ c.log ∨ (c.connected = false → c.heap = [] → c.subList = [] → c.subs = [] → r = .requeue none ∨ r = .disconnected c.me))
    (hst : c.stage ≠ .run → c'.stage ≠ .run) : Gate cfg c' := by
  refine ⟨?_, ?_, ?_⟩
  · rcases htx with e | e
    · exact h.tx.of_eq e
    · exact TxOk.nil e
  · intro hc
    rw [hcn] at hc
    obtain ⟨h1, h2, h3, h4, h5, h6, h7, h8⟩ := h.closed hc
    refine ⟨?_, hp h2, ?_, he.trans h4, ?_, hse.trans h6, ?_, ?_⟩
    · rcases hs with e | e
      · exact e.trans h1
      · exact e
    · rcases htx with e | e
      · exact e.trans h3
      · exact e
    · rcases hl h5 with e | e
      · exact e
      · rw [hc] at e; cases e
    · intro r hr
      rw [hm]
      rcases hg r hr with hr | hr
      · exact h7 r hr
      · exact hr hc h2 h5 h1
    · rw [hh]
      rcases h8 with h8 | ⟨h8, h9⟩
      · exact Or.inl h8
      · exact Or.inr ⟨h8, hst h9⟩
  · intro hc
    rw [hcn] at hc
    obtain ⟨f, rest, v, cx, cy, h1, h2, h3⟩ := h.opened hc
    exact ⟨f, rest, v, cx, cy, hh.trans h1, h2, hv.trans h3⟩

theorem get?_nil {β : Type} (k : Bytes) : AMap.get? ([] : AMap β) k = none := rfl

theorem atSelect_run {c : Conn} (h : c.atSelect = true) : c.stage = .run ∧ c.outbox = [] := by
  simpa [Conn.atSelect, List.isEmpty_iff] using h

theorem gate_frame (cfg : Config) (c : Conn) (ok1 ok2 : Bool) (f : Frame) (q : List Frame) (c' c'' : Conn) (f' : Frame) (r : Res)
    (hg : Gate cfg c) (hrun : c.stage = .run)
    (hs : ({ c with inq := q, hist := c.hist ++ [f] } : Conn).stateFunc cfg ok1 f = (c', f', r))
    (hf : Fin cfg c' ok2 f' r c'') : Gate cfg c'' := by
  by_cases hc : c.connected = true
  · have hh := handled cfg { c with inq := q, hist := c.hist ++ [f] } ok1 f hc hg.tx
    rw [hs] at hh
    dsimp only at hh
    have hk := hh.keeps
    have htx := hh.txOk hg.tx
    obtain ⟨f0, rest, v, cx, cy, h1, h2, h3⟩ := hg.opened hc
    have hcon : c'.connected = true := hk.connected.trans hc
    have hop : ∃ f rest v cx cy, c'.hist = f :: rest ∧ Accepts cfg f v cx cy ∧ c'.version = v :=
      ⟨f0, rest ++ [f], v, cx, cy, by rw [hk.hist, h1]; rfl, h2, by rw [hk.version]; exact h3⟩
    cases hf with
    | ok => exact ⟨htx, fun h => (by rw [hcon] at h; cases h), fun _ => hop⟩
    | panic => exact ⟨htx, fun h => (by rw [hcon] at h; cases h), fun _ => hop⟩
    | err e => exact ⟨TxOk.nil rfl, fun h => (by rw [hcon] at h; cases h), fun _ => hop⟩
    | errFail e => exact ⟨TxOk.nil rfl, fun h => (by rw [hcon] at h; cases h), fun _ => hop⟩
  · have hc : c.connected = false := by simpa using hc
    unfold Conn.stateFunc at hs
    rw [if_pos (by simp [hc])] at hs
    obtain ⟨h1, h2, h3, h4, h5, h6, h7, h8⟩ := hg.closed hc
    have hnil : c.hist = [] := by
      rcases h8 with h8 | ⟨_, h8⟩
      · exact h8
      · exact absurd hrun h8
    rcases connecting_cases cfg { c with inq := q, hist := c.hist ++ [f] } ok1 f with ⟨v, cx, cy, ha, he⟩ | ⟨hna, e, v, he⟩
    · rw [he] at hs
      dsimp only at hs
      rcases Conn.write_cases ({ c with inq := q, hist := c.hist ++ [f], version := v, writeTimeout := Conn.raise cy (asMilliseconds cfg.heartBeat maxHeartBeat) } : Conn) ok1
        (some (connectedFrame v (Conn.raise cx (asMilliseconds cfg.heartBeat maxHeartBeat)) (Conn.raise cy (asMilliseconds cfg.heartBeat maxHeartBeat)))) none with ⟨_, _, hw⟩ | ⟨_, hw⟩
      · rw [hw] at hs
        injection hs with e1 e2
        injection e2 with e2 e3
        subst e1 e3
        cases hf
        exact ⟨TxOk.nil h3, fun h => (by cases h), fun _ => ⟨f, [], v, cx, cy, by simp [hnil, Conn.emit], ha, rfl⟩⟩
      · rw [hw] at hs
        injection hs with e1 e2
        injection e2 with e2 e3
        subst e1 e3
        cases hf
        exact ⟨TxOk.nil h3, fun h => (by cases h), fun _ => ⟨f, [], v, cx, cy, by simp [hnil, Conn.emit], ha, rfl⟩⟩
    · rw [he] at hs
      injection hs with e1 e2
      injection e2 with e2 e3
      subst e1 e3
      cases hf with
      | err e =>
        refine ⟨TxOk.nil rfl, fun h => ⟨h1, h2, rfl, h4, h5, h6, h7, Or.inr ⟨⟨f, by simp [hnil], hna⟩, by simp⟩⟩, fun h => ?_⟩
        exact absurd h (by simp [hc])
      | errFail e =>
        refine ⟨TxOk.nil rfl, fun h => ⟨h1, h2, rfl, h4, h5, h6, h7, Or.inr ⟨⟨f, by simp [hnil], hna⟩, by simp⟩⟩, fun h => ?_⟩
        exact absurd h (by simp [hc])

theorem gate_step (cfg : Config) (c : Conn) (e : Conn.Ev) (c' : Conn) (hg : Gate cfg c) (h : Step cfg c e c') :
    Gate cfg c' := by
  cases h with
  | recv f => exact hg.weak (Or.inl rfl) rfl rfl (Or.inl rfl) rfl Or.inl rfl rfl rfl id (fun _ => Or.inl) id
  | readErr => exact hg.weak (Or.inl rfl) rfl rfl (Or.inl rfl) rfl Or.inl rfl rfl rfl id (fun _ => Or.inl) id
  | frame ok1 ok2 f q c1 _ f' r ha hq hs hf => exact gate_frame cfg c ok1 ok2 f q c1 c' f' r hg (atSelect_run ha).1 hs hf
  | readClosed => exact hg.weak (Or.inr rfl) rfl rfl (Or.inl rfl) rfl Or.inl rfl rfl rfl id (fun _ => Or.inl) (by simp)
  | wrOk => exact hg.weak (Or.inl rfl) rfl rfl (Or.inl rfl) rfl Or.inl rfl rfl rfl id (fun _ => Or.inl) id
  | wrErr => exact hg.weak (Or.inr rfl) rfl rfl (Or.inl rfl) rfl Or.inl rfl rfl rfl id (fun _ => Or.inl) (by simp)
  | wrFail => exact hg.weak (Or.inr rfl) rfl rfl (Or.inl rfl) rfl Or.inl rfl rfl rfl id (fun _ => Or.inl) (by simp)
  | subGone ok i l ha hl hgn =>
    refine hg.weak (Or.inl rfl) rfl rfl (Or.inl rfl) rfl Or.inl rfl rfl rfl id ?_ id
    intro r hr
    simp only [Conn.emit, List.mem_append, List.mem_singleton] at hr
    rcases hr with hr | rfl
    · exact Or.inl hr
    · right; intro _ hh _ _; left; rw [hh, deref_nil]; rfl
  | subNil => exact hg.weak (Or.inl rfl) rfl rfl (Or.inl rfl) rfl Or.inl rfl rfl rfl id (fun _ => Or.inl) id
  | subFail ok i l j m ha hl hgs hf hw =>
    refine hg.weak (Or.inr rfl) rfl rfl (Or.inl rfl) rfl Or.inl rfl rfl rfl (fun e => ?_) (fun _ => Or.inl) (by simp)
    show putFrame c.heap i _ = []; rw [e, putFrame_nil]
  | subAuto i l j m ha hl hgs hf hw hk =>
    refine hg.weak (Or.inl rfl) rfl rfl (Or.inl rfl) rfl Or.inl rfl rfl rfl (fun e => ?_) ?_ id
    · show putFrame (putFrame c.heap i _) i none = []; rw [e, putFrame_nil, putFrame_nil]
    · intro r hr
      right
      intro hc hh _ hsu
      rw [hsu, get?_nil] at hgs; cases hgs
  | subPanic i l j m ha hl hgs hf hw hk hi =>
    refine hg.weak (Or.inl rfl) rfl rfl (Or.inl rfl) rfl Or.inl rfl rfl rfl (fun e => ?_) (fun _ => Or.inl) id
    show putFrame c.heap i _ = []; rw [e, putFrame_nil]
  | subAdd i l j m ha hl hgs hf hw hk hi =>
    refine hg.weak (Or.inl rfl) rfl rfl (Or.inl rfl) rfl (fun _ => Or.inr ?_) rfl rfl rfl (fun e => ?_) (fun _ => Or.inl) id
    · cases hc : c.connected with
      | true => rfl
      | false => rw [(hg.closed hc).1, get?_nil] at hgs; cases hgs
    · show putInList (putFrame c.heap i _) i true = []; rw [e, putFrame_nil, putInList_nil]
  | timerOk => exact hg.weak (Or.inl rfl) rfl rfl (Or.inl rfl) rfl Or.inl rfl rfl rfl id (fun _ => Or.inl) id
  | timerFail => exact hg.weak (Or.inr rfl) rfl rfl (Or.inl rfl) rfl Or.inl rfl rfl rfl id (fun _ => Or.inl) (by simp)
  | discard => exact hg.weak (Or.inl rfl) rfl rfl (Or.inl rfl) rfl Or.inl rfl rfl rfl id (fun _ => Or.inl) id
  | discardEnd st ho hw hs =>
    refine hg.weak (Or.inl rfl) rfl rfl (Or.inl rfl) rfl Or.inl rfl rfl rfl id (fun _ => Or.inl) (fun _ => ?_)
    rcases hs with ⟨_, rfl⟩ | ⟨_, rfl⟩ | ⟨_, rfl⟩ <;> simp
  | acklist ho hs =>
    refine hg.weak (Or.inl rfl) rfl rfl (Or.inl rfl) rfl (fun _ => Or.inl rfl) rfl rfl rfl ?_ ?_ (fun _ => by simp [Conn.emit])
    · intro e
      show List.foldl _ c.heap c.subList = []
      rw [e]
      generalize c.subList = l
      induction l with
      | nil => rfl
      | cons i l ih => rw [List.foldl_cons, putInList_nil]; exact ih
    · intro r hr
      simp only [Conn.emit, List.mem_append] at hr
      rcases hr with hr | hr
      · exact Or.inl hr
      · right; intro _ _ hl _; rw [hl] at hr; simp at hr
  | drain i l ho hs hl =>
    refine hg.weak (Or.inl rfl) rfl rfl (Or.inl rfl) rfl Or.inl rfl rfl rfl id ?_ id
    intro r hr
    simp only [Conn.emit, List.mem_append, List.mem_singleton] at hr
    rcases hr with hr | rfl
    · exact Or.inl hr
    · right; intro _ hh _ _; left; rw [hh, deref_nil]; rfl
  | drainEnd st ho hl hs =>
    refine hg.weak (Or.inl rfl) rfl rfl (Or.inl rfl) rfl Or.inl rfl rfl rfl id (fun _ => Or.inl) (fun _ => ?_)
    rcases hs with ⟨_, rfl⟩ | ⟨_, rfl⟩ <;> simp
  | announce ho hs =>
    refine hg.weak (Or.inl rfl) rfl rfl (Or.inl rfl) rfl Or.inl rfl rfl rfl id ?_ (fun _ => by simp [Conn.emit])
    intro r hr
    simp only [Conn.emit, List.mem_append, List.mem_singleton] at hr
    rcases hr with hr | rfl
    · exact Or.inl hr
    · right; intro _ _ _ _; exact Or.inr rfl
  | unsub order ho hs hp =>
    refine hg.weak (Or.inl rfl) rfl rfl (Or.inr rfl) rfl Or.inl rfl rfl rfl id ?_ (fun _ => by simp [Conn.emit])
    intro r hr
    simp only [Conn.emit, List.mem_append] at hr
    rcases hr with hr | hr
    · exact Or.inl hr
    · right; intro _ _ _ hsu
      rw [hsu] at hp
      have : order = [] := List.perm_nil.1 hp
      rw [this] at hr; simp at hr
  | flushed => exact hg.weak (Or.inl rfl) rfl rfl (Or.inl rfl) rfl Or.inl rfl rfl rfl id (fun _ => Or.inl) id
  | setFrame i m =>
    refine hg.weak (Or.inl rfl) rfl rfl (Or.inl rfl) rfl Or.inl rfl rfl rfl (fun e => ?_) (fun _ => Or.inl) id
    show putFrame c.heap i _ = []; rw [e, putFrame_nil]
  | setInList i b =>
    refine hg.weak (Or.inl rfl) rfl rfl (Or.inl rfl) rfl Or.inl rfl rfl rfl (fun e => ?_) (fun _ => Or.inl) id
    show putInList c.heap i _ = []; rw [e, putInList_nil]
  | pushSub => exact hg.weak (Or.inl rfl) rfl rfl (Or.inl rfl) rfl Or.inl rfl rfl rfl id (fun _ => Or.inl) id
  | pushTopic => exact hg.weak (Or.inl rfl) rfl rfl (Or.inl rfl) rfl Or.inl rfl rfl rfl id (fun _ => Or.inl) id

theorem gate_init (cfg : Config) (me : Nat) : Gate cfg (Conn.init me) :=
  ⟨TxOk.nil rfl, fun _ => ⟨rfl, rfl, rfl, rfl, rfl, rfl, by simp [Conn.init], Or.inl rfl⟩, fun h => by cases h⟩

theorem gate_run (cfg : Config) (me : Nat) (es : List Conn.Ev) (c : Conn) (h : (Conn.init me).run cfg es = some c) :
    Gate cfg c :=
  run_induction (Q := fun _ => True) (fun c e c' _ hp hs => gate_step cfg c e c' hp hs) es _ _ (fun _ _ => trivial)
    (gate_init cfg me) h

end Stomp.Server
