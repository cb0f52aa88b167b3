import Verif.Proofs.Client.Due
/-! # Who still waits on the registered response channels -/
namespace Stomp.Client
open Stomp

/-- The channels `processLoop` may still send on. -/
def Sys.live (s : Sys) : List Nat :=
  match s.loop with
  | .errs _ l => l
  | .fail _ l => l
  | .done => []
  | _ => s.channels.map (·.2)

/-- The caller is past its receive without `processLoop` having forgotten its channel: it has given up, or was
answered by a MESSAGE. -/
def Thread.left (th : Thread) : Prop :=
  match th.call with
  | .send .. => th.pc = .ret .receiptTimeout ∨ ∃ f, th.pc = .ret (.response f) ∧ f.command = Cmd.message
  | .disconnect => th.pc = .ret .disconnectTimeout ∨ ∃ f, th.pc = .ret (.response f) ∧ f.command = Cmd.message
  | .unsubscribe .. => th.pc.past = true
  | _ => th.pc = .ret .closedUnexpectedly ∨ ∃ f, th.pc = .ret (.response f) ∧ f.command = Cmd.message

theorem Thread.left_past {th : Thread} (h : th.left) : th.pc.past = true := by
  unfold Thread.left at h
  split at h
  · rcases h with h | ⟨f, h, _⟩ <;> rw [h] <;> rfl
  · rcases h with h | ⟨f, h, _⟩ <;> rw [h] <;> rfl
  · exact h
  · rcases h with h | ⟨f, h, _⟩ <;> rw [h] <;> rfl

/-- The caller has given up waiting. -/
def Thread.gaveUp (th : Thread) : Prop :=
  match th.call with
  | .send .. => th.pc = .ret .receiptTimeout
  | .disconnect => th.pc = .ret .disconnectTimeout
  | .unsubscribe .. => th.pc.past = true
  | _ => th.pc = .ret .closedUnexpectedly

theorem Thread.gaveUp_left {th : Thread} (h : th.gaveUp) : th.left := by
  unfold Thread.gaveUp at h
  unfold Thread.left
  split at h
  · exact .inl h
  · exact .inl h
  · exact h
  · exact .inl h

/-- Whether a timer runs while the call waits for its receipt. -/
def Cfg.arms (cfg : Cfg) : Call → Bool
  | .send .. => cfg.receiptTimeout
  | .disconnect => cfg.disconnectTimeout
  | _ => cfg.writeTimeout

/-- Before the request is handed over. -/
def Pc.early : Pc → Bool
  | .start | .lock _ | .push _ => true
  | _ => false

/-- How a caller moves in a step in which `processLoop` hands over nothing. -/
inductive ThMove (cfg : Cfg) (s : Sys) (th th' : Thread) : Prop
  | same (h : th'.pc = th.pc)
  | early (h : th.pc.early = true)
  | gaveUp {n : Nat} (h : th.pc = .wait n) (h' : th'.gaveUp) (hcfg : cfg.arms th.call = true)
  | closed {n : Nat} (h : th.pc = .wait n) (hc : s.chanClosed n = true) (h' : th'.gaveUp)
  | past {i : Nat} {o : List SubOpt} (hc : th.call = .unsubscribe i o) (h : th.pc.past = true) (h' : th'.pc.past = true)

theorem get_mod {l : List Thread} {t u : Nat} {g : Thread → Thread} {th th' : Thread} (h : l[u]? = some th)
    (h' : (l.modify t g)[u]? = some th') : (t = u ∧ th' = g th) ∨ th' = th := by
  rw [List.getElem?_modify, h] at h'
  simp only [Option.map_eq_map, Option.map_some, Option.some.injEq] at h'
  split at h'
  · exact .inl ⟨by assumption, h'.symm⟩
  · exact .inr h'.symm

theorem move_modify {cfg : Cfg} {s s' : Sys} {t : Nat} {g : Thread → Thread} {th0 : Thread} (h : s'.threads = s.threads.modify t g)
    (h0 : s.threads[t]? = some th0) (hm : ThMove cfg s th0 (g th0)) {u : Nat} {th th' : Thread} (hu : s.threads[u]? = some th)
    (hu' : s'.threads[u]? = some th') : ThMove cfg s th th' := by
  rw [h] at hu'
  rcases get_mod hu hu' with ⟨rfl, rfl⟩ | rfl
  · rw [h0] at hu; cases hu; exact hm
  · exact .same rfl

theorem move_same {cfg : Cfg} {s s' : Sys} (h : s'.threads = s.threads) {u : Nat} {th th' : Thread} (hu : s.threads[u]? = some th)
    (hu' : s'.threads[u]? = some th') : ThMove cfg s th th' := by
  rw [h, hu] at hu'; cases hu'; exact .same rfl

theorem move_frameDone {cfg : Cfg} {s s' s1 : Sys} {t : Nat} {r : Res} {th0 : Thread} (h1 : s1.threads = s.threads)
    (h : s' = s1.frameDone t th0.call r)
    (h0 : s.threads[t]? = some th0) (hm : ∀ pc, (pc = .ret r ∧ (∀ i o, th0.call ≠ .unsubscribe i o) ∨
      pc.past = true ∧ ∃ i o, th0.call = .unsubscribe i o) → ThMove cfg s th0 { th0 with pc := pc })
    {u : Nat} {th th' : Thread} (hu : s.threads[u]? = some th)
    (hu' : s'.threads[u]? = some th') : ThMove cfg s th th' := by
  subst h
  obtain ⟨pc, _, _, _, hth, hpc⟩ := frameDone_spec s1 t th0.call r
  rw [h1] at hth
  refine move_modify hth h0 (hm pc ?_) hu hu'
  rcases hpc with ⟨h, h2, _⟩ | ⟨h, h2, _⟩
  · exact .inl ⟨h, h2⟩
  · rcases h with h | h <;> rw [h] <;> exact .inr ⟨rfl, h2⟩

theorem acquire_early {s : Sys} {th : Thread} {f : Frame} {last : Nat} (h : Acquire s th f last) : th.pc.early = true := by
  cases h with
  | send h => rw [h]; rfl
  | frame h => rw [h]; rfl
  | lock h => rw [h]; rfl
  | disconnect h => rw [h]; rfl

/-- Only `x` is closed. -/
def ChansOk (s s' : Sys) (x : Option Nat) : Prop :=
  ∀ n, s'.chanClosed n = true → x = some n ∨ s.chanClosed n = true

theorem chansOk_same {s s' : Sys} {x : Option Nat} (h : s'.chans = s.chans) : ChansOk s s' x := by
  intro n hn
  unfold Sys.chanClosed at *
  rw [h] at hn
  exact .inr hn

theorem chansOk_append {s s' : Sys} {x : Option Nat} {o : Owner} (h : s'.chans = s.chans ++ [⟨o, false⟩]) : ChansOk s s' x := by
  intro n hn
  right
  unfold Sys.chanClosed at *
  rw [h, List.getElem?_append] at hn
  split at hn
  · exact hn
  · exfalso
    cases hk : n - s.chans.length with
    | zero => rw [hk] at hn; simp at hn
    | succ k => rw [hk] at hn; simp at hn

theorem chansOk_close {s s1 : Sys} {n : Nat} (h : s1.chans = s.chans) : ChansOk s (s1.closeChan n) (some n) := by
  unfold Sys.closeChan
  split
  · exact chansOk_same h
  · intro m hm
    by_cases e : n = m
    · exact .inl (by rw [e])
    · right
      unfold Sys.chanClosed at *
      simp only at hm
      rw [List.getElem?_modify, h] at hm
      simpa [e] using hm

/-- How `processLoop` hands a frame over. -/
inductive Gives (s s' : Sys) : Prop
  | mk {f : Frame} {n : Nat} {b : Bool} {s1 : Sys} (hat : AtSend s f n) (hc : s.chanClosed n = false) (h1 : s.handOver n f b = some s1)
      (ht : s'.threads = s1.threads) (hs : s'.subs = s1.subs)
      (hw : s'.writeCh = s.writeCh)
      (hl : (∃ id, s.loop = .receipt f id n ∧ s'.channels = s.channels.del id ∧ s'.live = (s.channels.del id).map (·.2)) ∨
        (s.loop = .message f n ∧ s'.channels = s.channels ∧ s'.live = s.live ∧ ChansOk s s' none) ∨
        (s.live = n :: s'.live ∧ s'.channels = s.channels ∧ ((∃ l, s.loop = .errs f (n :: l)) ∨ ∃ l, s.loop = .fail f (n :: l))))
      (hch : ChansOk s s' (some n))

theorem handOver_chans {s s1 : Sys} {n : Nat} {f : Frame} {b : Bool} (h : s.handOver n f b = some s1) : s1.chans = s.chans := by
  cases handOver_cases h with
  | frame => exact (frameDone_spec _ _ _ _).choose_spec.1.chans
  | _ => rfl

theorem handOver_writeCh {s s1 : Sys} {n : Nat} {f : Frame} {b : Bool} (h : s.handOver n f b = some s1) : s1.writeCh = s.writeCh := by
  cases handOver_cases h with
  | frame => exact (frameDone_spec _ _ _ _).choose_spec.1.writeCh
  | _ => rfl

theorem gives_receipt {s s1 : Sys} {f : Frame} {id : Bytes} {n : Nat} {b : Bool} (hl : s.loop = .receipt f id n)
    (hc : s.chanClosed n = false) (h1 : s.handOver n f b = some s1) :
    Gives s ({ s1 with channels := s1.channels.del id, loop := .select }.closeChan n) := by
  obtain ⟨_, _, gw, _, _, g3, g4, g1, g2, _⟩ := closeChan_spec { s1 with channels := s1.channels.del id, loop := .select } n
  have hch : s1.channels = s.channels := handOver_channels h1
  refine .mk (.inl ⟨id, hl⟩) hc h1 g1 g2 (gw.trans (show s1.writeCh = _ from handOver_writeCh h1)) (.inl ⟨id, hl, ?_, ?_⟩)
    (chansOk_close (show s1.chans = _ from handOver_chans h1))
  · rw [g4, hch]
  · unfold Sys.live
    rw [g3, g4, hch]

theorem gives_message {s s1 : Sys} {f : Frame} {n : Nat} {b : Bool} (hl : s.loop = .message f n)
    (hc : s.chanClosed n = false) (h1 : s.handOver n f b = some s1) : Gives s { s1 with loop := .select } := by
  have hch : s1.channels = s.channels := handOver_channels h1
  refine .mk (.inr (.inl hl)) hc h1 rfl rfl (show s1.writeCh = _ from handOver_writeCh h1)
    (.inr (.inl ⟨hl, hch, ?_, chansOk_same (show s1.chans = _ from handOver_chans h1)⟩))
    (chansOk_same (show s1.chans = _ from handOver_chans h1))
  unfold Sys.live
  rw [hl]
  show s1.channels.map (·.2) = _
  rw [hch]

theorem gives_err {s s1 : Sys} {f : Frame} {n : Nat} {l : List Nat} {b : Bool} (hl : s.loop = .errs f (n :: l))
    (hc : s.chanClosed n = false) (h1 : s.handOver n f b = some s1) : Gives s ({ s1 with loop := .errs f l }.closeChan n) := by
  obtain ⟨_, _, gw, _, _, g3, g4, g1, g2, _⟩ := closeChan_spec { s1 with loop := .errs f l } n
  refine .mk (.inr (.inr (.inl ⟨l, hl⟩))) hc h1 g1 g2 (gw.trans (show s1.writeCh = _ from handOver_writeCh h1))
    (.inr (.inr ⟨?_, g4.trans (show s1.channels = _ from handOver_channels h1), .inl ⟨l, hl⟩⟩))
    (chansOk_close (show s1.chans = _ from handOver_chans h1))
  unfold Sys.live
  rw [g3, hl]

theorem gives_fail {s s1 : Sys} {f : Frame} {n : Nat} {l : List Nat} {b : Bool} (hl : s.loop = .fail f (n :: l))
    (hc : s.chanClosed n = false) (h1 : s.handOver n f b = some s1) : Gives s { s1 with loop := .fail f l } := by
  refine .mk (.inr (.inr (.inr ⟨l, hl⟩))) hc h1 rfl rfl (show s1.writeCh = _ from handOver_writeCh h1)
    (.inr (.inr ⟨?_, show s1.channels = _ from handOver_channels h1, .inr ⟨l, hl⟩⟩))
    (chansOk_same (show s1.chans = _ from handOver_chans h1))
  unfold Sys.live
  rw [hl]

/-- A step hands a frame over, or moves the callers as in `ThMove`. -/
theorem th_step {cfg : Cfg} {s s' : Sys} (h : Step cfg s s') :
    Gives s s' ∨
    ∀ (t : Nat) (th th' : Thread), s.threads[t]? = some th → s'.threads[t]? = some th' → ThMove cfg s th th' := by
  cases h with
  | call c hl =>
    right
    intro t th th' ht ht'
    have := (List.getElem?_eq_some_iff.1 ht).1
    rw [show _ = (s.threads ++ [_])[t]? from rfl, List.getElem?_append_left this, ht] at ht'
    cases ht'
    exact .same rfl
  | early ht hpc => exact .inr fun _ _ _ a b => move_modify rfl ht (.early (by rw [hpc]; rfl)) a b
  | acquire ht hm hc ha =>
    exact .inr fun _ _ _ a b => move_modify rfl ht (.early (acquire_early ha)) a b
  | acquireBare ht hm hc ha =>
    exact .inr fun _ _ _ a b => move_modify rfl ht (.early (acquire_early ha)) a b
  | frameClosed ht hm hc hpc =>
    refine .inr fun _ _ _ a b => move_frameDone (s := s) (s1 := s.closeNet) rfl rfl ht (fun _ _ => .early ?_) a b
    rcases hpc with ⟨h, _⟩ | ⟨f, h⟩ <;> rw [h] <;> rfl
  | subscribe ht hpc => exact .inr fun _ _ _ a b => move_modify rfl ht (.early (by rw [hpc]; rfl)) a b
  | unsubOption ht hpc => exact .inr fun _ _ _ a b => move_modify rfl ht (.early (by rw [hpc]; rfl)) a b
  | unsubGo ht hpc => exact .inr fun _ _ _ a b => move_modify rfl ht (.early (by rw [hpc]; rfl)) a b
  | unsubDone ht hpc => exact .inr fun _ _ _ a b => move_modify rfl ht (.early (by rw [hpc]; rfl)) a b
  | mustGo ht hpc => exact .inr fun _ _ _ a b => move_modify rfl ht (.early (by rw [hpc]; rfl)) a b
  | pushWait ht hpc => exact .inr fun _ _ _ a b => move_modify rfl ht (.early (by rw [hpc]; rfl)) a b
  | pushRet ht hpc => exact .inr fun _ _ _ a b => move_modify rfl ht (.early (by rw [hpc]; rfl)) a b
  | pushFrameWait ht hpc => exact .inr fun _ _ _ a b => move_modify rfl ht (.early (by rw [hpc]; rfl)) a b
  | @pushSub t th r n d a o ht hpc =>
    have h1 := (handOut_spec { s with writeCh := s.writeCh ++ [r], trace := s.trace ++ [Obs.accepted t r] } n).2.2.1
    refine .inr fun _ _ _ a b => move_modify (t := t) (g := fun th => { th with pc := .ret .ok }) ?_ ht (.early (by rw [hpc]; rfl)) a b
    show List.modify _ _ _ = _
    rw [show (Sys.unlock _).threads = _ from h1]
  | @pushFrameRet t th r ht hpc =>
    exact .inr fun _ _ _ a b => move_frameDone (s := s)
      (s1 := Sys.unlock { s with writeCh := s.writeCh ++ [r], trace := s.trace ++ [Obs.accepted t r] }) rfl rfl ht
      (fun _ _ => .early (by rw [hpc]; rfl)) a b
  | @waitClosed t th n ht hpc hc hcall =>
    refine .inr fun _ _ _ a b => move_frameDone rfl rfl ht (fun pc hp => .closed hpc hc ?_) a b
    cases hc' : th.call with
    | send => exact absurd (.inl ⟨_, _, _, _, hc'⟩) hcall
    | disconnect => exact absurd (.inr hc') hcall
    | unsubscribe i o =>
      rcases hp with ⟨_, h⟩ | ⟨h, _⟩
      · exact absurd hc' (h i o)
      · simp [Thread.gaveUp, h]
    | _ =>
      rcases hp with ⟨rfl, _⟩ | ⟨_, i, o, h⟩
      · simp [Thread.gaveUp]
      · rw [hc'] at h; cases h
  | @unsub t th i o b s' ht hcall hb hpc h =>
    obtain ⟨_, ⟨h1, _⟩ | ⟨_, pc, hp, h1, h2, _⟩⟩ := unsub_spec h
    · exact .inr fun _ _ _ a b => move_same h1 a b
    · refine .inr fun _ _ _ a b => move_modify h1 ht (.past hcall ?_ h2) a b
      unfold Sys.unsub at h
      split at h <;> first | contradiction | (rename_i e; rw [e]; rfl)
  | sendTimeout ht hpc => exact .inr fun _ _ _ a b => move_modify rfl ht (.early (by rw [hpc]; rfl)) a b
  | receiptTimeout ht hpc hcall hcfg =>
    exact .inr fun _ _ _ a b => move_modify rfl ht (.gaveUp hpc (by simp [Thread.gaveUp, hcall]) (by rw [hcall]; exact hcfg)) a b
  | disconnectTimeout ht hpc hcall hcfg =>
    exact .inr fun _ _ _ a b => move_modify rfl ht (.gaveUp hpc (by simp [Thread.gaveUp, hcall]) (by rw [hcall]; exact hcfg)) a b
  | frameTimeout ht hpc hcall hcfg =>
    refine .inr fun _ _ _ a b => move_frameDone rfl rfl ht (fun pc hp => .gaveUp hpc ?_ ?_) a b
    · rcases hcall with ⟨f, hcall⟩ | ⟨i, o, hcall⟩
      · rcases hp with ⟨rfl, _⟩ | ⟨_, i, o, h⟩
        · simp [Thread.gaveUp, hcall]
        · rw [hcall] at h; cases h
      · rcases hp with ⟨_, h⟩ | ⟨h, _⟩
        · exact absurd hcall (h i o)
        · simp [Thread.gaveUp, hcall, h]
    · rcases hcall with ⟨f, hcall⟩ | ⟨i, o, hcall⟩ <;> rw [hcall] <;> exact hcfg
  | selectTimeout ht hpc hcall =>
    exact .inr fun _ _ _ a b => move_modify rfl ht (.past hcall (by rw [hpc]; rfl) rfl) a b
  | helper ht hcall hb h =>
    obtain ⟨_, _, ⟨h1, _⟩ | ⟨_, hp, h1⟩⟩ := helper_spec h
    · exact .inr fun _ _ _ a b => move_same h1 a b
    · exact .inr fun u th th' a b => by
        rw [h1] at b
        rcases get_mod a b with ⟨_, rfl⟩ | rfl <;> exact .same rfl
  | takeQuiet => exact .inr fun _ _ _ a b => move_same (takeReq_spec s _ _).2.2.2.2.2.2.2.1 a b
  | takeSent => exact .inr fun _ _ _ a b => move_same (s' := Sys.log _ _) (takeReq_spec s _ _).2.2.2.2.2.2.2.1 a b
  | takeFail => exact .inr fun _ _ _ a b => move_same (takeReq_spec s _ _).2.2.2.2.2.2.2.1 a b
  | giveReceipt hl hc h1 => exact .inl (gives_receipt hl hc h1)
  | giveMessage hl hc h1 => exact .inl (gives_message hl hc h1)
  | giveErr hl hc h1 => exact .inl (gives_err hl hc h1)
  | giveFail hl hc h1 => exact .inl (gives_fail hl hc h1)
  | sub h => exact .inr fun _ _ _ a b => move_same (subStep_spec h).2.2 a b
  | _ => exact .inr fun _ _ _ a b => move_same rfl a b

/-- How the `readLoop` of a subscription moves in such a step. -/
inductive RlMove (s : Sys) (b b' : Sub) : Prop
  | same (h : b'.rl = b.rl)
  | put {m : CMsg} (h : b.rl = .put m) (h' : b'.rl = .recv)
  | closed (h : b.rl = .recv) (hc : s.chanClosed b.chan = true) (h' : ∃ m, b'.rl = .check m)
  | ending (h : (∃ m, b.rl = .check m) ∨ ∃ p, b.rl = .closing p) (h' : (∃ p, b'.rl = .closing p) ∨ b'.rl = .done)

theorem get_setSub {l : List Sub} {i j : Nat} {c b b' : Sub} (h : l[j]? = some b) (h' : (l.set i c)[j]? = some b') :
    (i = j ∧ b' = c) ∨ b' = b := by
  rw [List.getElem?_set] at h'
  split at h'
  · split at h'
    · simp only [Option.some.injEq] at h'; exact .inl ⟨by assumption, h'.symm⟩
    · cases h'
  · rw [h] at h'; cases h'; exact .inr rfl

theorem rl_same {s s' : Sys} (h : s'.subs = s.subs) {i : Nat} {b b' : Sub} (hb : s.subs[i]? = some b) (hb' : s'.subs[i]? = some b') :
    RlMove s b b' := by
  rw [h, hb] at hb'; cases hb'; exact .same rfl

theorem rl_set {s s' : Sys} {j : Nat} {c c' : Sub} (h : s'.subs = s.subs.set j c') (hc : s.subs[j]? = some c) (hm : RlMove s c c')
    {i : Nat} {b b' : Sub} (hb : s.subs[i]? = some b) (hb' : s'.subs[i]? = some b') : RlMove s b b' := by
  rw [h] at hb'
  rcases get_setSub hb hb' with ⟨rfl, rfl⟩ | rfl
  · rw [hc] at hb; cases hb; exact hm
  · exact .same rfl

theorem rl_unsub {cfg : Cfg} {s s' : Sys} {t j : Nat} {th : Thread} {c : Sub} (hc : s.subs[j]? = some c)
    (h : s.unsub cfg t th j c = some s') {i : Nat} {b b' : Sub} (hb : s.subs[i]? = some b) (hb' : s'.subs[i]? = some b') :
    RlMove s b b' := by
  unfold Sys.unsub at h
  repeat' split at h
  all_goals first
    | contradiction
    | simp only [Option.some.injEq] at h
  all_goals subst h
  all_goals first
    | exact rl_same rfl hb hb'
    | exact rl_set rfl hc (.same (by rfl)) hb hb'
    | skip
  all_goals
    rename_i hs
    refine rl_set rfl hc (.same ?_) hb hb'
    unfold closeStep at hs
    repeat' split at hs
    all_goals first
      | contradiction
      | (cases hs; rfl)

theorem rl_helper {s s' : Sys} {t : Nat} (h : s.helper t = some s') {i : Nat} {b b' : Sub} (hb : s.subs[i]? = some b)
    (hb' : s'.subs[i]? = some b') : RlMove s b b' := by
  unfold Sys.helper at h
  repeat' split at h
  all_goals first
    | contradiction
    | simp only [Option.some.injEq] at h
  all_goals subst h
  all_goals first
    | exact rl_same rfl hb hb'
    | exact rl_set rfl (by assumption) (.same (by rfl)) hb hb'

theorem rl_subStep {s s' : Sys} {j : Nat} (h : s.subStep j = some s') {i : Nat} {b b' : Sub} (hb : s.subs[i]? = some b)
    (hb' : s'.subs[i]? = some b') : RlMove s b b' := by
  obtain ⟨c, hc, hs⟩ := subStep_cases h
  cases hs with
  | eof hr hcl => exact rl_set rfl hc (.closed hr hcl ⟨_, rfl⟩) hb hb'
  | putCrash => exact rl_same rfl hb hb'
  | put hr => exact rl_set rfl hc (.put hr rfl) hb hb'
  | checkClosed hr => exact rl_set rfl hc (.ending (.inl ⟨_, hr⟩) (.inr rfl)) hb hb'
  | checkOpen hr => exact rl_set rfl hc (.ending (.inl ⟨_, hr⟩) (.inl ⟨_, rfl⟩)) hb hb'
  | closeCrash => exact rl_same rfl hb hb'
  | closeNext hr => exact rl_set rfl hc (.ending (.inr ⟨_, hr⟩) (.inl ⟨_, rfl⟩)) hb hb'
  | closeFin hr => exact rl_set rfl hc (.ending (.inr ⟨_, hr⟩) (.inr rfl)) hb hb'

theorem rl_step {cfg : Cfg} {s s' : Sys} (h : Step cfg s s') :
    Gives s s' ∨ ∀ (i : Nat) (b b' : Sub), s.subs[i]? = some b → s'.subs[i]? = some b' → RlMove s b b' := by
  cases h with
  | subscribe =>
    right
    intro i b b' hb hb'
    have := (List.getElem?_eq_some_iff.1 hb).1
    have hb' : (s.subs ++ [_])[i]? = some b' := hb'
    rw [List.getElem?_append_left this, hb] at hb'
    cases hb'
    exact .same rfl
  | @frameClosed t th => exact .inr fun _ _ _ a b => rl_same (s := s) ((frameDone_spec s.closeNet t th.call _).choose_spec.2.2.1) a b
  | unsubOption ht hpc hcall hb => exact .inr fun _ _ _ a b => rl_set rfl hb (.same (by rfl)) a b
  | unsubGo ht hpc hcall hb => exact .inr fun _ _ _ a b => rl_set rfl hb (.same (by rfl)) a b
  | @pushSub t th r n =>
    refine .inr fun i b b' hb hb' => ?_
    have hb' : (Sys.handOut { s with writeCh := s.writeCh ++ [r], trace := s.trace ++ [Obs.accepted t r] } n).subs[i]? = some b' := hb'
    unfold Sys.handOut at hb'
    split at hb'
    · simp only [List.getElem?_modify, hb, Option.map_eq_map, Option.map_some, Option.some.injEq] at hb'
      subst hb'
      split <;> exact .same rfl
    · exact rl_same (s := s) rfl hb hb'
  | @pushFrameRet t th r =>
    exact .inr fun _ _ _ a b => rl_same (s := s) ((frameDone_spec (Sys.unlock { s with writeCh := s.writeCh ++ [r], trace := s.trace ++ [Obs.accepted t r] }) t th.call .ok).choose_spec.2.2.1) a b
  | waitClosed => exact .inr fun _ _ _ a b => rl_same ((frameDone_spec _ _ _ _).choose_spec.2.2.1) a b
  | frameTimeout => exact .inr fun _ _ _ a b => rl_same ((frameDone_spec _ _ _ _).choose_spec.2.2.1) a b
  | unsub ht hcall hb hpc h => exact .inr fun _ _ _ a b => rl_unsub hb h a b
  | helper ht hcall hb h => exact .inr fun _ _ _ a b => rl_helper h a b
  | takeQuiet => exact .inr fun _ _ _ a b => rl_same (takeReq_spec s _ _).2.2.2.2.2.2.2.2.1 a b
  | takeSent => exact .inr fun _ _ _ a b => rl_same (s' := Sys.log _ _) (takeReq_spec s _ _).2.2.2.2.2.2.2.2.1 a b
  | takeFail => exact .inr fun _ _ _ a b => rl_same (takeReq_spec s _ _).2.2.2.2.2.2.2.2.1 a b
  | giveReceipt hl hc h1 => exact .inl (gives_receipt hl hc h1)
  | giveMessage hl hc h1 => exact .inl (gives_message hl hc h1)
  | giveErr hl hc h1 => exact .inl (gives_err hl hc h1)
  | giveFail hl hc h1 => exact .inl (gives_fail hl hc h1)
  | sub h => exact .inr fun _ _ _ a b => rl_subStep h a b
  | take hb => exact .inr fun _ _ _ a b => rl_set rfl hb (.same (by rfl)) a b
  | _ => exact .inr fun _ _ _ a b => rl_same rfl a b

/-- What `processLoop` does in such a step. -/
inductive LiveMove (s s' : Sys) : Prop
  | quiet (h : s'.live.Perm s.live) (h2 : s'.channels = s.channels) (hw : s'.writeCh = s.writeCh) (hc : ChansOk s s' none)
  | over (h0 : s.live = []) (h : s'.live = []) (h2 : s'.channels = s.channels) (hw : s'.writeCh = s.writeCh) (hc : ChansOk s s' none)
  | push {t : Nat} {th : Thread} {r : Req} (ht : s.threads[t]? = some th) (hpc : th.pc = .push r) (h : s'.live = s.live)
      (h2 : s'.channels = s.channels) (hw : s'.writeCh = s.writeCh ++ [r]) (hc : ChansOk s s' none)
      (hth : ∀ th', s'.threads[t]? = some th' →
        (∀ n, r.chan = some n → (∀ d a o, th.call ≠ .subscribe d a o) → th'.pc = .wait n))
  | took {r : Req} {rest : List Req} (hl : s.loop = .select) (hw : s.writeCh = r :: rest) (hw' : s'.writeCh = rest)
      (h : s'.live.Perm ((handleWrite s.channels r).1.map (·.2))) (h2 : s'.channels = (handleWrite s.channels r).1)
      (hc : ChansOk s s' (handleWrite s.channels r).2.1)
      (hcl : ∀ x, (handleWrite s.channels r).2.1 = some x → x < s.chans.length → s'.chanClosed x = true) (htr : .taken r ∈ s'.trace)

theorem live_congr {s s' : Sys} (h1 : s'.loop = s.loop) (h2 : s'.channels = s.channels) : s'.live = s.live := by
  unfold Sys.live; rw [h1, h2]

theorem live_same {s s' : Sys} (h1 : s'.loop = s.loop) (h2 : s'.channels = s.channels) (hw : s'.writeCh = s.writeCh)
    (h3 : s'.chans = s.chans) : LiveMove s s' :=
  .quiet (by unfold Sys.live; rw [h1, h2]) h2 hw (chansOk_same h3)

theorem live_core {s s' : Sys} (h : SameCore s s') : LiveMove s s' := live_same h.loop h.channels h.writeCh h.chans

theorem live_select {s : Sys} (h : s.loop = .select) : s.live = s.channels.map (·.2) := by unfold Sys.live; rw [h]

theorem takeReq_chans (s : Sys) (r : Req) (rest : List Req) : ChansOk s (s.takeReq r rest).1 (handleWrite s.channels r).2.1 := by
  unfold Sys.takeReq
  dsimp only
  split
  · rename_i n hn
    rw [hn]
    exact chansOk_close rfl
  · exact chansOk_same rfl

theorem closeChan_closes (s : Sys) {n : Nat} (h : n < s.chans.length) : (s.closeChan n).chanClosed n = true := by
  unfold Sys.closeChan
  split
  · assumption
  · unfold Sys.chanClosed
    simp [List.getElem?_eq_getElem h]

theorem closeChan_mono {s : Sys} {n m : Nat} (h : s.chanClosed m = true) : (s.closeChan n).chanClosed m = true := by
  unfold Sys.closeChan
  split
  · exact h
  · unfold Sys.chanClosed at *
    cases hm : s.chans[m]? with
    | none => rw [hm] at h; cases h
    | some c =>
      rw [hm] at h
      simp only [List.getElem?_modify, hm]
      simp only [Option.map_eq_map, Option.map_some, Option.getD_some] at h ⊢
      split
      · rfl
      · exact h

theorem takeReq_closes (s : Sys) (r : Req) (rest : List Req) (x : Nat) (h : (handleWrite s.channels r).2.1 = some x)
    (hx : x < s.chans.length) : (s.takeReq r rest).1.chanClosed x = true := by
  unfold Sys.takeReq
  dsimp only
  split
  · rename_i n hn
    rw [hn] at h
    cases h
    exact closeChan_closes _ hx
  · rename_i hn
    rw [hn] at h
    cases h

theorem takeReq_mono {s : Sys} {r : Req} {rest : List Req} {n : Nat} (h : s.chanClosed n = true) : (s.takeReq r rest).1.chanClosed n = true := by
  unfold Sys.takeReq
  dsimp only
  split
  · exact closeChan_mono h
  · exact h

theorem chanClosed_congr {s s' : Sys} (h : s'.chans = s.chans) (n : Nat) : s'.chanClosed n = s.chanClosed n := by
  unfold Sys.chanClosed; rw [h]

theorem chanClosed_append {s s' : Sys} {c : Chan} (h : s'.chans = s.chans ++ [c]) {n : Nat} (hc : s.chanClosed n = true) :
    s'.chanClosed n = true := by
  unfold Sys.chanClosed at *
  cases hm : s.chans[n]? with
  | none => rw [hm] at hc; cases hc
  | some d =>
    rw [hm] at hc
    rw [h, getElem?_append_some hm]
    exact hc

/-- What is closed stays closed. -/
theorem mono_step {cfg : Cfg} {s s' : Sys} (h : Step cfg s s') {n : Nat} (hc : s.chanClosed n = true) : s'.chanClosed n = true := by
  cases h with
  | acquire => exact chanClosed_append (s := s) rfl hc
  | subscribe => exact chanClosed_append (s := s) rfl hc
  | @frameClosed t th =>
    exact (chanClosed_congr (frameDone_spec s.closeNet t th.call .closedUnexpectedly).choose_spec.1.chans n).trans hc
  | @pushSub t th r m =>
    exact (chanClosed_congr (s := s) (handOut_spec { s with writeCh := s.writeCh ++ [r], trace := s.trace ++ [Obs.accepted t r] } m).1.chans n).trans hc
  | @pushFrameRet t th r =>
    exact (chanClosed_congr (s := s) (frameDone_spec (Sys.unlock { s with writeCh := s.writeCh ++ [r], trace := s.trace ++ [Obs.accepted t r] })
      t th.call .ok).choose_spec.1.chans n).trans hc
  | waitClosed => exact (chanClosed_congr (frameDone_spec _ _ _ _).choose_spec.1.chans n).trans hc
  | frameTimeout => exact (chanClosed_congr (frameDone_spec _ _ _ _).choose_spec.1.chans n).trans hc
  | unsub ht hcall hb hpc h => exact (chanClosed_congr (unsub_spec h).1.chans n).trans hc
  | helper ht hcall hb h => exact (chanClosed_congr (helper_spec h).1.chans n).trans hc
  | sub h => exact (chanClosed_congr (subStep_spec h).1.chans n).trans hc
  | takeQuiet => exact takeReq_mono hc
  | takeSent => exact takeReq_mono hc
  | takeFail => exact takeReq_mono hc
  | giveReceipt hl _ h1 => exact closeChan_mono ((chanClosed_congr (s := s) (handOver_chans h1) n).trans hc)
  | giveMessage hl _ h1 => exact (chanClosed_congr (s := s) (handOver_chans h1) n).trans hc
  | giveErr hl _ h1 => exact closeChan_mono ((chanClosed_congr (s := s) (handOver_chans h1) n).trans hc)
  | giveFail hl _ h1 => exact (chanClosed_congr (s := s) (handOver_chans h1) n).trans hc
  | _ => exact hc

theorem get_modify_self {l : List Thread} {t : Nat} {g : Thread → Thread} {th th' : Thread} (h : l[t]? = some th)
    (h' : (l.modify t g)[t]? = some th') : th' = g th := by
  rw [List.getElem?_modify, h] at h'
  simp only [Option.map_eq_map, Option.map_some, Option.some.injEq, if_true] at h'
  exact h'.symm

theorem live_step {cfg : Cfg} {s s' : Sys} (h : Step cfg s s') : Gives s s' ∨ LiveMove s s' := by
  cases h with
  | acquire => exact .inr (.quiet (.refl _) rfl rfl (chansOk_append rfl))
  | subscribe => exact .inr (.quiet (.refl _) rfl rfl (chansOk_append rfl))
  | @frameClosed t th =>
    have := (frameDone_spec s.closeNet t th.call .closedUnexpectedly).choose_spec.1
    exact .inr (live_same (s := s) this.loop this.channels this.writeCh this.chans)
  | pushWait ht hpc hw hcap hr hcall =>
    refine .inr (.push ht hpc rfl rfl rfl (chansOk_same rfl) fun th' ht' n hn _ => ?_)
    rw [hr] at hn
    cases hn
    rw [get_modify_self ht ht']
  | pushRet ht hpc hw hcap hr hcall =>
    exact .inr (.push ht hpc rfl rfl rfl (chansOk_same rfl) fun th' ht' n hn _ => by rw [hr] at hn; cases hn)
  | pushFrameWait ht hpc hw hcap hr hcall =>
    refine .inr (.push ht hpc rfl rfl rfl (chansOk_same rfl) fun th' ht' n hn _ => ?_)
    rw [hr] at hn
    cases hn
    rw [get_modify_self ht ht']
  | @pushSub t th r n d a o ht hpc hw hcap hr hcall =>
    have := (handOut_spec { s with writeCh := s.writeCh ++ [r], trace := s.trace ++ [Obs.accepted t r] } n).1
    exact .inr (.push ht hpc (live_congr this.loop this.channels)
      this.channels this.writeCh (chansOk_same this.chans) fun th' ht' n hn hc => absurd hcall (hc d a o))
  | @pushFrameRet t th r ht hpc hw hcap hr hcall =>
    have := (frameDone_spec (Sys.unlock { s with writeCh := s.writeCh ++ [r], trace := s.trace ++ [Obs.accepted t r] }) t th.call .ok).choose_spec.1
    exact .inr (.push ht hpc (live_congr this.loop this.channels) this.channels this.writeCh (chansOk_same this.chans)
      fun th' ht' n hn _ => by rw [hr] at hn; cases hn)
  | waitClosed => exact .inr (live_core (frameDone_spec _ _ _ _).choose_spec.1)
  | frameTimeout => exact .inr (live_core (frameDone_spec _ _ _ _).choose_spec.1)
  | unsub ht hcall hb hpc h => exact .inr (live_core (unsub_spec h).1)
  | helper ht hcall hb h => exact .inr (live_core (helper_spec h).1)
  | sub h => exact .inr (live_core (subStep_spec h).1)
  | fail hl hp => exact .inr (.quiet (by rw [live_select hl]; exact List.isPerm_iff.1 hp) rfl rfl (chansOk_same rfl))
  | readMissing hl hr hf hid hp => exact .inr (.quiet (by rw [live_select hl]; exact List.isPerm_iff.1 hp) rfl rfl (chansOk_same rfl))
  | readErr hl hr hf hp => exact .inr (.quiet (by rw [live_select hl]; exact List.isPerm_iff.1 hp) rfl rfl (chansOk_same rfl))
  | readReceipt hl => exact .inr (.quiet (by rw [live_select hl]; exact .refl _) rfl rfl (chansOk_same rfl))
  | readMessage hl => exact .inr (.quiet (by rw [live_select hl]; exact .refl _) rfl rfl (chansOk_same rfl))
  | @takeQuiet r rest hl hw =>
    obtain ⟨_, _, g0, _, _, g1, g2, _, _, g3, _⟩ := takeReq_spec s r rest
    refine .inr (.took hl hw g0 ?_ g2 (takeReq_chans s r rest) (takeReq_closes s r rest) (by rw [g3]; simp))
    unfold Sys.live
    rw [g1, hl, g2]
  | @takeSent r rest f hl hw =>
    obtain ⟨_, _, g0, _, _, g1, g2, _, _, g3, _⟩ := takeReq_spec s r rest
    refine .inr (.took hl hw g0 ?_ g2 (takeReq_chans s r rest) (takeReq_closes s r rest) (by unfold Sys.log; dsimp only; rw [g3]; simp))
    unfold Sys.live Sys.log
    dsimp only
    rw [g1, hl, g2]
  | @takeFail r rest f order hl hw ho hp =>
    obtain ⟨_, _, g0, _, _, g1, g2, _, _, g3, _⟩ := takeReq_spec s r rest
    exact .inr (.took hl hw g0 (List.isPerm_iff.1 hp) g2 (takeReq_chans s r rest) (takeReq_closes s r rest) (by unfold Sys.log; dsimp only; rw [g3]; simp))
  | giveReceipt hl hc h1 => exact .inl (gives_receipt hl hc h1)
  | giveMessage hl hc h1 => exact .inl (gives_message hl hc h1)
  | giveErr hl hc h1 => exact .inl (gives_err hl hc h1)
  | giveFail hl hc h1 => exact .inl (gives_fail hl hc h1)
  | finErrs hl => exact .inr (.over (by unfold Sys.live; rw [hl]) rfl rfl rfl (chansOk_same rfl))
  | finClosed hl => exact .inr (.over (by unfold Sys.live; rw [hl]) rfl rfl rfl (chansOk_same rfl))
  | finFail hl => exact .inr (.over (by unfold Sys.live; rw [hl]) rfl rfl rfl (chansOk_same rfl))
  | _ => exact .inr (live_same rfl rfl rfl rfl)

end Stomp.Client
