import Verif.Proofs.Client.Live
/-! # Everyone `processLoop` may send to is receiving, has given up, or reads slowly -/
namespace Stomp.Client
open Stomp

/-! ## Values of the map -/

theorem count_set_ne {m : AMap Nat} {k : Bytes} {v n : Nat} (h : v ≠ n) :
    ((m.set k v).map (·.2)).count n ≤ (m.map (·.2)).count n := by
  induction m with
  | nil => simp [AMap.set, h]
  | cons e m ih =>
    obtain ⟨k', v'⟩ := e
    simp only [AMap.set]
    split
    · simp only [List.map_cons, List.count_cons, beq_iff_eq, h, if_false]; omega
    · simp only [List.map_cons, List.count_cons]; omega

theorem count_set {m : AMap Nat} {k : Bytes} {n : Nat} :
    ((m.set k n).map (·.2)).count n ≤ (m.map (·.2)).count n + 1 := by
  induction m with
  | nil => simp [AMap.set]
  | cons e m ih =>
    obtain ⟨k', v'⟩ := e
    simp only [AMap.set]
    split
    · simp only [List.map_cons, List.count_cons, beq_self_eq_true, if_true]; omega
    · simp only [List.map_cons, List.count_cons]; omega

theorem count_del {m : AMap Nat} {k : Bytes} {n : Nat} : ((m.del k).map (·.2)).count n ≤ (m.map (·.2)).count n := by
  induction m with
  | nil => simp [AMap.del]
  | cons e m ih =>
    obtain ⟨k', v'⟩ := e
    simp only [AMap.del]
    split
    · simp only [List.map_cons, List.count_cons]; omega
    · simp only [List.map_cons, List.count_cons]; omega

theorem count_del_hit {m : AMap Nat} {k : Bytes} {n : Nat} (h : m.get? k = some n) :
    ((m.del k).map (·.2)).count n + 1 ≤ (m.map (·.2)).count n := by
  induction m with
  | nil => simp [AMap.get?] at h
  | cons e m ih =>
    obtain ⟨k', v'⟩ := e
    simp only [AMap.get?] at h
    simp only [AMap.del]
    split at h
    · rename_i hk
      cases h
      rw [if_pos hk]
      have := count_del (m := m) (k := k) (n := n)
      simp only [List.map_cons, List.count_cons, beq_self_eq_true, if_true]
      omega
    · rename_i hk
      rw [if_neg hk]
      simp only [List.map_cons, List.count_cons]
      have := ih h
      omega

theorem regBase_count {m : AMap Nat} {r : Req} {n : Nat} :
    ((regBase m r).map (·.2)).count n ≤ (m.map (·.2)).count n + if r.chan = some n ∧ r.frame.header.contains Hdr.receipt ≠ none then 1 else 0 := by
  unfold regBase
  split
  · rename_i v k hv hk
    by_cases e : v = n
    · subst e
      rw [if_pos ⟨hv, by rw [hk]; simp⟩]
      exact count_set
    · exact Nat.le_trans (count_set_ne e) (by omega)
  · omega

theorem took_count {m : AMap Nat} {r : Req} {n : Nat}
    (hs : r.chan = some n → r.frame.command = Cmd.subscribe → r.frame.header.contains Hdr.receipt = none) :
    ((handleWrite m r).1.map (·.2)).count n ≤ (m.map (·.2)).count n + if r.chan = some n then 1 else 0 := by
  have hb := regBase_count (m := m) (r := r) (n := n)
  have hb' : ((regBase m r).map (·.2)).count n ≤ (m.map (·.2)).count n + if r.chan = some n then 1 else 0 := by
    refine Nat.le_trans hb ?_
    split
    · rename_i h; rw [if_pos h.1]; omega
    · omega
  rw [hw_eq]
  split
  · rename_i hc
    split
    · rename_i v hv
      by_cases e : v = n
      · subst e
        rw [if_pos hv]
        have := hs hv hc
        rw [if_neg (by simp [this])] at hb
        exact Nat.le_trans count_set (by omega)
      · exact Nat.le_trans (count_set_ne e) hb'
    · exact hb'
  · split
    · split
      · exact Nat.le_trans count_del hb'
      · exact hb'
    · exact hb'

theorem took_mem {m : AMap Nat} {r : Req} {n : Nat} (h : n ∈ (handleWrite m r).1.map (·.2)) :
    n ∈ m.map (·.2) ∨ r.chan = some n := by
  rw [List.mem_map] at h
  obtain ⟨⟨k, v⟩, h, rfl⟩ := h
  have base : (k, v) ∈ regBase m r → (k, v) ∈ m ∨ r.chan = some v := by
    unfold regBase
    split
    · rename_i v' k' hv hk
      intro h
      rcases AMap.mem_set h with h | h
      · cases h; exact .inr hv
      · exact .inl h
    · exact .inl
  have : (k, v) ∈ m ∨ r.chan = some v := by
    rw [hw_eq] at h
    split at h
    · split at h
      · rename_i v' hv
        rcases AMap.mem_set h with h | h
        · cases h; exact .inr hv
        · exact base h
      · exact base h
    · split at h
      · split at h
        · exact base (AMap.mem_del h)
        · exact base h
      · exact base h
  rcases this with h | h
  · exact .inl (List.mem_map.2 ⟨_, h, rfl⟩)
  · exact .inr h

theorem took_closed {m : AMap Nat} {r : Req} {x : Nat} (h : (handleWrite m r).2.1 = some x) :
    ((handleWrite m r).1.map (·.2)).count x + 1 ≤ (m.map (·.2)).count x + if r.chan = some x then 1 else 0 := by
  have hb := regBase_count (m := m) (r := r) (n := x)
  have hb' : ((regBase m r).map (·.2)).count x ≤ (m.map (·.2)).count x + if r.chan = some x then 1 else 0 := by
    refine Nat.le_trans hb ?_
    split
    · rename_i h; rw [if_pos h.1]; omega
    · omega
  have hdef : handleWrite m r =
      if r.frame.command = Cmd.subscribe then
        match r.frame.header.contains Hdr.replyTo with
        | some k => ((match r.chan with | some n => (regBase m r).set k n | none => regBase m r), none, none)
        | none =>
          ((match r.chan with | some n => (regBase m r).set ((r.frame.header.contains Hdr.id).getD []) n | none => regBase m r),
            none, some r.frame)
      else if r.frame.command = Cmd.unsubscribe then
        match r.frame.header.contains Hdr.replyTo with
        | some k => match (regBase m r).get? k with
          | some n => ((regBase m r).del k, some n, none)
          | none => (regBase m r, none, none)
        | none =>
          (regBase m r, none, some { r.frame with
            header := r.frame.header.set Hdr.receipt ((r.frame.header.contains Hdr.id).getD []) })
      else (regBase m r, none, some r.frame) := rfl
  rw [hdef] at h ⊢
  split at h
  · split at h <;> cases h
  · rename_i hc
    rw [if_neg hc]
    split at h
    · rename_i hc'
      rw [if_pos hc']
      split at h
      · rename_i k hk
        split at h
        · rename_i n hn
          cases h
          simp only
          have := count_del_hit hn
          omega
        · cases h
      · cases h
    · cases h

/-! ## The map and the position of `processLoop` -/

structure MapInv (s : Sys) : Prop where
  receipt : ∀ (f : Frame) (id : Bytes) (n : Nat), s.loop = .receipt f id n → s.channels.get? id = some n
  message : ∀ (f : Frame) (n : Nat), s.loop = .message f n → n ∈ s.channels.map (·.2)
  live : ∀ n ∈ s.live, n ∈ s.channels.map (·.2)
  taken : ∀ n ∈ s.channels.map (·.2), ∃ t r, (t, r) ∈ acceptedIn s.trace ∧ r.chan = some n

theorem values_of_get {m : AMap Nat} {k : Bytes} {n : Nat} (h : m.get? k = some n) : n ∈ m.map (·.2) :=
  List.mem_map.2 ⟨(k, n), AMap.mem_of_get? h, rfl⟩

theorem map_step {cfg : Cfg} {s s' : Sys} (ho : OrderInv s) (hi : MapInv s) (h : Step cfg s s') : MapInv s' := by
  have he := ext_step h
  have hr : (∀ (f : Frame) (id : Bytes) (n : Nat), s'.loop = .receipt f id n → s'.channels.get? id = some n) ∧
      ∀ (f : Frame) (n : Nat), s'.loop = .message f n → n ∈ s'.channels.map (·.2) := by
    cases loopEff_step h with
    | quiet h1 h2 => rw [h1, h2]; exact ⟨hi.receipt, hi.message⟩
    | stop h0 h1 h2 =>
      obtain ⟨g1, g2⟩ := LoopPc.stopped_not h1
      refine ⟨fun f id n h => absurd h (g1 f id n), fun f n h => ?_⟩
      have := g2 n
      rw [h] at this
      simp [pend] at this
    | skip h0 h1 => rw [h1, h0]; exact ⟨fun _ _ _ h => (by cases h), fun _ _ h => (by cases h)⟩
    | receipt h0 h1 h2 h3 hf hid hn =>
      rw [h1, h2]
      exact ⟨fun f' id' n' h => (by cases h; exact hn), fun _ _ h => (by cases h)⟩
    | message h0 h1 h2 h3 hf hid hn =>
      rw [h1, h2]
      exact ⟨fun _ _ _ h => (by cases h), fun f' n' h => (by cases h; exact values_of_get hn)⟩
    | take h0 h1 =>
      rcases h1 with h1 | ⟨_, _, h1⟩ <;> rw [h1] <;> exact ⟨fun _ _ _ h => (by cases h), fun _ _ h => (by cases h)⟩
    | gaveReceipt h0 h1 => rw [h1]; exact ⟨fun _ _ _ h => (by cases h), fun _ _ h => (by cases h)⟩
    | gaveMessage _ _ h0 h1 => rw [h1]; exact ⟨fun _ _ _ h => (by cases h), fun _ _ h => (by cases h)⟩
  have acc : ∀ {n : Nat}, (∃ t r, (t, r) ∈ acceptedIn s.trace ∧ r.chan = some n) → ∃ t r, (t, r) ∈ acceptedIn s'.trace ∧ r.chan = some n :=
    fun ⟨t, r, h1, h2⟩ => ⟨t, r, acceptedIn_ext he h1, h2⟩
  have hlt : (∀ n ∈ s'.live, n ∈ s'.channels.map (·.2)) ∧
      ∀ n ∈ s'.channels.map (·.2), ∃ t r, (t, r) ∈ acceptedIn s'.trace ∧ r.chan = some n := by
    rcases live_step h with hg | hm
    · obtain ⟨hat, hc, h1, ht, hs, hw, hl, hch⟩ := hg
      rcases hl with ⟨id, hl, g1, g2⟩ | ⟨hl, g1, g2, _⟩ | ⟨g2, g1, _⟩
      · rw [g1, g2]
        refine ⟨fun n h => h, fun n h => acc (hi.taken n ?_)⟩
        obtain ⟨e, he, rfl⟩ := List.mem_map.1 h
        exact List.mem_map.2 ⟨e, AMap.mem_del he, rfl⟩
      · rw [g1, g2]
        exact ⟨hi.live, fun n h => acc (hi.taken n h)⟩
      · rw [g1]
        exact ⟨fun n h => hi.live n (by rw [g2]; exact List.mem_cons_of_mem _ h), fun n h => acc (hi.taken n h)⟩
    · cases hm with
      | quiet h h2 hw hc => rw [h2]; exact ⟨fun n g => hi.live n (h.mem_iff.1 g), fun n h => acc (hi.taken n h)⟩
      | over h0 h h2 hw hc => rw [h2, h]; exact ⟨fun n g => absurd g (by simp), fun n h => acc (hi.taken n h)⟩
      | push ht hpc h h2 hw hc => rw [h2, h]; exact ⟨hi.live, fun n h => acc (hi.taken n h)⟩
      | @took r rest hl hw hw' h h2 hc hcl htr =>
        rw [h2]
        refine ⟨fun n g => h.mem_iff.1 g, fun n g => acc ?_⟩
        rcases took_mem g with g | g
        · exact hi.taken n g
        · obtain ⟨t, ht⟩ := mem_handedIn (tr := s.trace) (r := r) (by rw [ho.queue, hw]; simp)
          exact ⟨t, r, ht, g⟩
  exact ⟨hr.1, hr.2, hlt.1, hlt.2⟩

theorem map_init (n : Nat) : MapInv (Sys.init n) := by
  constructor
  · intro f id n h; cases h
  · intro f n h; cases h
  · intro n h; cases h
  · intro n h; cases h

/-! ## The receivers -/

/-- The channels that are registered or will be. -/
def Sys.all (s : Sys) : List Nat := s.live ++ s.writeCh.filterMap (·.chan)

/-- Not the channel of a SUBSCRIBE that asks for a receipt (it would be registered twice). -/
def Single (s : Sys) (n : Nat) : Prop :=
  ∀ t r, (t, r) ∈ acceptedIn s.trace → r.chan = some n → r.frame.command = Cmd.subscribe → r.frame.header.contains Hdr.receipt = none

structure ServeInv (s : Sys) : Prop where
  one : ∀ n, Single s n → s.all.count n ≤ 1
  opened : ∀ n ∈ s.all, Single s n → s.chanClosed n = false
  caller : ∀ n ∈ s.all, ∀ (t : Nat) (c : Bool) (th : Thread), s.chans[n]? = some ⟨.caller t, c⟩ → s.threads[t]? = some th →
    th.pc = .wait n ∨ th.left
  sub : ∀ n ∈ s.all, Single s n → ∀ (i : Nat) (c : Bool) (b : Sub), s.chans[n]? = some ⟨.sub i, c⟩ → s.subs[i]? = some b →
    b.rl = .recv ∨ ∃ m, b.rl = .put m
  push : ∀ (t : Nat) (th : Thread) (r : Req) (n : Nat), s.threads[t]? = some th → th.pc = .push r → r.chan = some n →
    s.chanClosed n = false ∧ ∀ (i : Nat) (c : Bool) (b : Sub), s.chans[n]? = some ⟨.sub i, c⟩ → s.subs[i]? = some b → b.rl = .recv

theorem atSend_live {s : Sys} (hm : MapInv s) {f : Frame} {n : Nat} (h : AtSend s f n) : n ∈ s.live := by
  rcases h with ⟨id, h⟩ | h | ⟨l, h⟩ | ⟨l, h⟩
  · unfold Sys.live; rw [h]; exact values_of_get (hm.receipt _ _ _ h)
  · unfold Sys.live; rw [h]; exact hm.message _ _ h
  · unfold Sys.live; rw [h]; exact List.mem_cons_self ..
  · unfold Sys.live; rw [h]; exact List.mem_cons_self ..

/-- Every channel in `all` is that of an accepted request. -/
theorem all_acc {s : Sys} (ho : OrderInv s) (hm : MapInv s) {n : Nat} (h : n ∈ s.all) :
    ∃ t r, (t, r) ∈ acceptedIn s.trace ∧ r.chan = some n := by
  rcases List.mem_append.1 h with h | h
  · exact hm.taken n (hm.live n h)
  · obtain ⟨r, hr, hn⟩ := List.mem_filterMap.1 h
    obtain ⟨t, ht⟩ := mem_handedIn (tr := s.trace) (r := r) (by rw [ho.queue]; exact List.mem_append_right _ hr)
    exact ⟨t, r, ht, hn⟩

/-- The channel of a request, and what it says of the caller or the subscription. -/
theorem reqOf_owner {s : Sys} {t : Nat} {call : Call} {r : Req} {n : Nat} (h : ReqOf s t call r) (hn : r.chan = some n) :
    (∃ i c b, s.chans[n]? = some ⟨.sub i, c⟩ ∧ s.subs[i]? = some b ∧ b.chan = n ∧ ∃ d a o, call = .subscribe d a o) ∨
    (∃ c, s.chans[n]? = some ⟨.caller t, c⟩ ∧ (∀ d a o, call ≠ .subscribe d a o) ∧ Spec.FrameOf s call r.frame) := by
  by_cases hcall : ∃ d a o, call = .subscribe d a o
  · obtain ⟨d, a, o, rfl⟩ := hcall
    obtain ⟨m, i, last, last', b, c, k1, k2, k3, k4, k5, k6⟩ := h
    rw [hn] at k1
    cases k1
    obtain ⟨ow, cl⟩ := c
    cases k3
    exact .inl ⟨i, cl, b, k2, k4, k5, d, a, o, rfl⟩
  · have hcall' : ∀ d a o, call ≠ .subscribe d a o := fun d a o h => hcall ⟨d, a, o, h⟩
    obtain ⟨k0, ⟨k1, _⟩ | ⟨m, c, k1, k2, k3, _⟩⟩ := (reqOf_caller hcall').1 h
    · rw [hn] at k1; cases k1
    · rw [hn] at k1
      cases k1
      obtain ⟨ow, cl⟩ := c
      cases k3
      exact .inr ⟨cl, k2, hcall', k0⟩

theorem applyUnsubOpts_command {os : List SubOpt} {f g : Frame} (h : applyUnsubOpts f os = some g) : g.command = f.command := by
  induction os generalizing f with
  | nil => cases h; rfl
  | cons o os ih =>
    cases o with
    | nilOpt => cases h
    | fail => cases h
    | id i =>
      simp only [applyUnsubOpts, applySubOpt] at h
      split at h
      · cases h
      · rename_i hf
        rw [ih h]
        split at hf <;> cases hf
        rfl
    | header k v =>
      simp only [applyUnsubOpts, applySubOpt] at h
      split at h
      · cases h
      · rename_i hf
        rw [ih h]
        split at hf <;> cases hf
        rfl

theorem frameOf_not_subscribe {s : Sys} {call : Call} {f : Frame} (hc : ∀ d a o, call ≠ .subscribe d a o) (h : Spec.FrameOf s call f) :
    f.command ≠ Cmd.subscribe := by
  cases call with
  | subscribe d a o => exact absurd rfl (hc d a o)
  | unsubscribe i o =>
    obtain ⟨b, _, h⟩ := h
    unfold createUnsubscribeFrame at h
    split at h
    · cases h
    · rename_i g hg
      have h1 := applyUnsubOpts_command hg
      simp only [Option.some.injEq] at h
      subst h
      split <;> (simp only [h1]; show Cmd.unsubscribe ≠ Cmd.subscribe; decide)
  | mustDisconnect => cases h
  | _ => exact (frameOf_plain rfl h).1

/-- The channel of a caller is not that of a SUBSCRIBE. -/
theorem caller_single {s : Sys} (ho : OriginInv s) {n t : Nat} {c : Bool} (h : s.chans[n]? = some ⟨.caller t, c⟩) : Single s n := by
  intro t' r hr hn hc
  obtain ⟨th, ht, hq⟩ := ho.acc t' r hr
  rcases reqOf_owner hq hn with ⟨i, c', b, k1, _⟩ | ⟨c', k1, k2, k3⟩
  · rw [h] at k1; cases k1
  · exact absurd hc (frameOf_not_subscribe k2 k3)

theorem handOver_threads {s s1 : Sys} {n : Nat} {f : Frame} {b : Bool} (ho : OriginInv s) (h : s.handOver n f b = some s1) {u : Nat} {th th' : Thread}
    (hu : s.threads[u]? = some th) (hu' : s1.threads[u]? = some th') :
    th' = th ∨ ((∃ c, s.chans[n]? = some ⟨.caller u, c⟩) ∧ th.pc = .wait n ∧ th'.pc.past = true ∧ (f.command = Cmd.message → th'.left)) := by
  have hm : f.command = Cmd.message → resOf f = .response f := fun hf => by
    unfold resOf; rw [if_neg (by rw [hf]; decide)]
  have key : ∀ {t : Nat} {th0 : Thread} {g : Thread → Thread} {c : Bool}, s.chans[n]? = some ⟨.caller t, c⟩ → s.threads[t]? = some th0 →
      th0.pc = .wait n → s1.threads = s.threads.modify t g → (g th0).pc.past = true → (f.command = Cmd.message → (g th0).left) →
      th' = th ∨ ((∃ c, s.chans[n]? = some ⟨.caller u, c⟩) ∧ th.pc = .wait n ∧ th'.pc.past = true ∧ (f.command = Cmd.message → th'.left)) := by
    intro t th0 g c hn ht hpc hth hpast hg
    rw [hth] at hu'
    rcases get_mod hu hu' with ⟨rfl, rfl⟩ | rfl
    · rw [ht] at hu; cases hu
      exact .inr ⟨⟨c, hn⟩, hpc, hpast, hg⟩
    · exact .inl rfl
  cases handOver_cases h with
  | send hn ht hpc hcall => exact key hn ht hpc rfl rfl (fun hf => by simp [Thread.left, hcall, hm hf, hf])
  | discOk hn ht hpc hcall hf => exact key hn ht hpc rfl rfl (fun hf' => by rw [hf] at hf'; exact absurd hf' (by decide))
  | discErr hn ht hpc hcall hf => exact key hn ht hpc rfl rfl (fun hf' => by simp [Thread.left, hcall, hf'])
  | @frame t th0 c hn ht hpc hcall =>
    obtain ⟨pc, _, _, _, hth, hp⟩ := frameDone_spec s t th0.call (resOf f)
    refine key hn ht hpc hth (by rcases hp with ⟨rfl, _⟩ | ⟨rfl | rfl, _⟩ <;> rfl) (fun hf => ?_)
    rcases hp with ⟨rfl, h2, _⟩ | ⟨h1, ⟨i, o, h2⟩, _⟩
    · obtain ⟨r, hr, hrn⟩ := (ho.callers t th0 ht).wait n hpc
      obtain ⟨th1, ht1, hq⟩ := ho.acc t r hr
      rw [ht] at ht1
      cases ht1
      cases hc : th0.call with
      | send => exact absurd (.inl ⟨_, _, _, _, hc⟩) hcall
      | disconnect => exact absurd (.inr hc) hcall
      | frame g => simp [Thread.left, hm hf, hf]
      | subscribe d a o =>
        rcases reqOf_owner hq hrn with ⟨i, c', b, k1, _⟩ | ⟨c', k1, k2, _⟩
        · rw [hn] at k1; cases k1
        · exact absurd hc (k2 d a o)
      | unsubscribe i o => exact absurd hc (h2 i o)
      | mustDisconnect => rw [hc] at hq; exact hq.1.elim
    · simp only [Thread.left, h2]
      rcases h1 with rfl | rfl <;> rfl
  | sub hn hb hrl =>
    simp only [Sys.setSub] at hu'
    rw [hu] at hu'
    cases hu'
    exact .inl rfl

/-- Where a caller that is about to hand its request over comes from. -/
theorem push_from {s s' : Sys} (h : Eff s s') {t : Nat} {th' : Thread} {r : Req} {n : Nat} (ht : s'.threads[t]? = some th')
    (hpc : th'.pc = .push r) (hn : r.chan = some n) :
    (∃ th, s.threads[t]? = some th ∧ th.pc = .push r) ∨
    (n = s.chans.length ∧ (s'.chans = s.chans ++ [⟨.caller t, false⟩] ∨
      (s'.chans = s.chans ++ [⟨.sub s.subs.length, false⟩] ∧ ∃ id rt m, s'.subs = s.subs ++ [Sub.new id rt m]))) := by
  have old : ∀ {u : Nat} {g : Thread → Thread} {th0 : Thread}, s.threads[u]? = some th0 → s'.threads = s.threads.modify u g →
      (t = u → th' = g th0 → (∃ th, s.threads[t]? = some th ∧ th.pc = .push r) ∨
    (n = s.chans.length ∧ (s'.chans = s.chans ++ [⟨.caller t, false⟩] ∨
      (s'.chans = s.chans ++ [⟨.sub s.subs.length, false⟩] ∧ ∃ id rt m, s'.subs = s.subs ++ [Sub.new id rt m])))) →
      (∃ th, s.threads[t]? = some th ∧ th.pc = .push r) ∨
    (n = s.chans.length ∧ (s'.chans = s.chans ++ [⟨.caller t, false⟩] ∨
      (s'.chans = s.chans ++ [⟨.sub s.subs.length, false⟩] ∧ ∃ id rt m, s'.subs = s.subs ++ [Sub.new id rt m]))) := by
    intro u g th0 hu hth hk
    rw [hth, List.getElem?_modify] at ht
    cases hq : s.threads[t]? with
    | none => rw [hq] at ht; cases ht
    | some th1 =>
      rw [hq] at ht
      simp only [Option.map_eq_map, Option.map_some, Option.some.injEq] at ht
      split at ht
      · rename_i e
        subst e
        rw [hu] at hq
        cases hq
        rcases hk rfl ht.symm with ⟨th, h1, h2⟩ | h
        · exact .inl ⟨th, h1.symm.trans hu ▸ rfl, h2⟩
        · exact .inr h
      · subst ht; exact .inl ⟨th1, rfl, hpc⟩
  cases h with
  | same h1 => rw [h1] at ht; exact .inl ⟨th', ht, hpc⟩
  | call c hl h1 =>
    rw [h1, List.getElem?_append] at ht
    split at ht
    · exact .inl ⟨th', ht, hpc⟩
    · cases hk : t - s.threads.length with
      | zero => rw [hk] at ht; simp only [List.getElem?_cons_zero, Option.some.injEq] at ht; subst ht; cases hpc
      | succ k => rw [hk] at ht; simp at ht
  | past ht0 h1 hg hp =>
    refine old ht0 h1 (fun _ e => ?_)
    rw [← e, hpc] at hp
    cases hp
  | @helper u g h1 hg =>
    rw [h1, List.getElem?_modify] at ht
    cases hq : s.threads[t]? with
    | none => rw [hq] at ht; cases ht
    | some th1 =>
      rw [hq] at ht
      simp only [Option.map_eq_map, Option.map_some, Option.some.injEq] at ht
      split at ht
      · subst ht; rw [(hg th1).2] at hpc; exact .inl ⟨th1, rfl, hpc⟩
      · subst ht; exact .inl ⟨th1, rfl, hpc⟩
  | acquire ht0 hm ha hr h1 h3 h4 =>
    refine old ht0 h1 (fun e e' => ?_)
    rw [e'] at hpc
    simp only [Pc.push.injEq] at hpc
    subst hpc
    cases hn
    subst e
    exact .inr ⟨rfl, .inl h3⟩
  | acquireBare ht0 hm ha hr h1 h4 =>
    refine old ht0 h1 (fun e e' => ?_)
    rw [e'] at hpc
    simp only [Pc.push.injEq] at hpc
    subst hpc
    cases hn
  | subscribe ht0 hm hpc0 hcall hf h1 h3 h4 =>
    refine old ht0 h1 (fun e e' => ?_)
    rw [e'] at hpc
    simp only [Pc.push.injEq] at hpc
    subst hpc
    cases hn
    exact .inr ⟨rfl, .inr ⟨h3, _, _, _, h4⟩⟩
  | lock ht0 hpc0 hcall hb hf h1 =>
    refine old ht0 h1 (fun e e' => ?_)
    rw [e'] at hpc
    cases hpc
  | accept ht0 hpc0 h1 hp =>
    refine old ht0 h1 (fun e e' => ?_)
    rw [e'] at hpc
    simp only at hpc
    rcases hp with hp | ⟨n, hp, _⟩
    · rw [hpc] at hp; cases hp
    · rw [hpc] at hp; cases hp

theorem chans_back {s s' : Sys} (he : Ext s s') {n : Nat} {o : Owner} {c : Bool} {x : Chan} (h : s.chans[n]? = some x)
    (h' : s'.chans[n]? = some ⟨o, c⟩) : s.chans[n]? = some ⟨o, x.closed⟩ := by
  obtain ⟨c', h1, h2⟩ := he.chans n x h
  rw [h'] at h1
  cases h1
  obtain ⟨ow, cl⟩ := x
  cases h2
  exact h

theorem single_back {s s' : Sys} (he : Ext s s') {n : Nat} (h : Single s' n) : Single s n :=
  fun t r hr => h t r (acceptedIn_ext he hr)

theorem count_of_mem {l : List Nat} {n : Nat} (h : n ∈ l) : 1 ≤ l.count n := List.one_le_count_iff.2 h

theorem serve_mk {s s' : Sys} {New : Nat → Prop} (ha : AllInv s) (hmap : MapInv s) (hi : ServeInv s) (he : Ext s s') (heff : Eff s s')
    (hmem : ∀ n ∈ s'.all, n ∈ s.all ∨ New n)
    (hcnt : ∀ n, Single s n → s'.all.count n ≤ s.all.count n ∨ (New n ∧ s'.all.count n ≤ 1))
    (hcls : ∀ n, s'.chanClosed n = true → s.chanClosed n = true ∨ (n ∈ s.all ∧ (Single s n → n ∉ s'.all)))
    (hthr : ∀ n ∈ s'.all, n ∈ s.all → ∀ (t : Nat) (c : Bool) (th th' : Thread), s.chans[n]? = some ⟨.caller t, c⟩ → s.threads[t]? = some th →
      s'.threads[t]? = some th' → (th.pc = .wait n ∨ th.left) → (th'.pc = .wait n ∨ th'.left))
    (hrl : ∀ n ∈ s'.all, n ∈ s.all → Single s n → ∀ (i : Nat) (c : Bool) (b b' : Sub), s.chans[n]? = some ⟨.sub i, c⟩ → s.subs[i]? = some b →
      b.chan = n → s'.subs[i]? = some b' → (b.rl = .recv ∨ ∃ m, b.rl = .put m) → (b'.rl = .recv ∨ ∃ m, b'.rl = .put m))
    (hrlp : ∀ (i : Nat) (b b' : Sub), s.subs[i]? = some b → s'.subs[i]? = some b' → b.rl = .recv → s.chanClosed b.chan = false →
      b.chan ∉ s.all → b'.rl = .recv)
    (hnew : ∀ n, New n → n ∉ s.all ∧ s.chanClosed n = false ∧
      (∀ (t : Nat) (c : Bool) (th' : Thread), s'.chans[n]? = some ⟨.caller t, c⟩ → s'.threads[t]? = some th' → th'.pc = .wait n) ∧
      (∀ (i : Nat) (c : Bool) (b' : Sub), s'.chans[n]? = some ⟨.sub i, c⟩ → s'.subs[i]? = some b' → b'.rl = .recv)) :
    ServeInv s' := by
  constructor
  · intro n hn
    rcases hcnt n (single_back he hn) with h | h
    · exact Nat.le_trans h (hi.one n (single_back he hn))
    · exact h.2
  · intro n hn hs
    have hs := single_back he hs
    refine Bool.eq_false_iff.2 (fun hc => ?_)
    rcases hcls n hc with h | h
    · rcases hmem n hn with g | g
      · rw [hi.opened n g hs] at h; cases h
      · rw [(hnew n g).2.1] at h; cases h
    · exact h.2 hs hn
  · intro n hn t c th' hc ht'
    rcases hmem n hn with g | g
    · obtain ⟨u, r, hr, hrn⟩ := all_acc ha.order hmap g
      obtain ⟨th, ht, hq⟩ := ha.origin.acc u r hr
      rcases reqOf_owner hq hrn with ⟨i, c', b, k1, _⟩ | ⟨c', k1, _⟩
      · have := chans_back he k1 hc
        rw [k1] at this
        cases this
      · have := chans_back he k1 hc
        rw [k1] at this
        cases this
        exact hthr n hn g t c' th th' k1 ht ht' (hi.caller n g t c' th k1 ht)
    · exact .inl ((hnew n g).2.2.1 t c th' hc ht')
  · intro n hn hs i c b' hc hb'
    have hs := single_back he hs
    rcases hmem n hn with g | g
    · obtain ⟨u, r, hr, hrn⟩ := all_acc ha.order hmap g
      obtain ⟨th, ht, hq⟩ := ha.origin.acc u r hr
      rcases reqOf_owner hq hrn with ⟨j, c', b, k1, k2, k3, _⟩ | ⟨c', k1, _⟩
      · have := chans_back he k1 hc
        rw [k1] at this
        cases this
        exact hrl n hn g hs i c' b b' k1 k2 k3 hb' (hi.sub n g hs i c' b k1 k2)
      · have := chans_back he k1 hc
        rw [k1] at this
        cases this
    · exact .inl ((hnew n g).2.2.2 i c b' hc hb')
  · intro t th' r n ht' hpc hn
    rcases push_from heff ht' hpc hn with ⟨th, ht, hpc0⟩ | ⟨rfl, hnw⟩
    · obtain ⟨h1, h2⟩ := hi.push t th r n ht hpc0 hn
      have hck := (ha.origin.callers t th ht).push r hpc0
      have hfresh : n ∉ s.all := by
        intro h
        obtain ⟨u, r', hr, hrn⟩ := all_acc ha.order hmap h
        exact hck.2 u r' n hr hn hrn
      constructor
      · refine Bool.eq_false_iff.2 (fun hc => ?_)
        rcases hcls n hc with h | h
        · rw [h1] at h; cases h
        · exact hfresh h.1
      · intro i c b' hc hb'
        rcases reqOf_owner hck.1 hn with ⟨j, c', b, k1, k2, k3, _⟩ | ⟨c', k1, _⟩
        · have := chans_back he k1 hc
          rw [k1] at this
          cases this
          exact hrlp i b b' k2 hb' (h2 i c' b k1 k2) (by rw [k3]; exact h1) (by rw [k3]; exact hfresh)
        · have := chans_back he k1 hc
          rw [k1] at this
          cases this
    · rcases hnw with h3 | ⟨h3, id, rt, m, h4⟩
      · refine ⟨by simp [Sys.chanClosed, h3], ?_⟩
        intro i c b' hc
        rw [h3] at hc
        simp at hc
      · refine ⟨by simp [Sys.chanClosed, h3], ?_⟩
        intro i c b' hc hb'
        rw [h3] at hc
        simp at hc
        obtain ⟨rfl, _⟩ := hc
        rw [h4] at hb'
        simp at hb'
        subst hb'
        rfl

theorem handOver_subs {s s1 : Sys} {n : Nat} {f : Frame} {bb : Bool} (h : s.handOver n f bb = some s1) {i : Nat} {b b' : Sub}
    (hb : s.subs[i]? = some b) (hb' : s1.subs[i]? = some b') :
    b'.rl = b.rl ∨ ((∃ c, s.chans[n]? = some ⟨.sub i, c⟩) ∧ b.rl = .recv ∧ (f.command = Cmd.message → b'.rl = .put (.msg f))) := by
  have same : s1.subs = s.subs → b'.rl = b.rl ∨
      ((∃ c, s.chans[n]? = some ⟨.sub i, c⟩) ∧ b.rl = .recv ∧ (f.command = Cmd.message → b'.rl = .put (.msg f))) := by
    intro h
    rw [h, hb] at hb'
    cases hb'
    exact .inl rfl
  cases handOver_cases h with
  | frame => exact same ((frameDone_spec _ _ _ _).choose_spec.2.2.1)
  | @sub j b0 c hn hb0 hrl =>
    have hb' : (s.subs.set j { b0 with rl := Sys.rlRecv f })[i]? = some b' := hb'
    rcases get_setSub hb hb' with ⟨rfl, rfl⟩ | rfl
    · rw [hb0] at hb
      cases hb
      exact .inr ⟨⟨c, hn⟩, hrl, fun hf => rlRecv_message hf⟩
    · exact .inl rfl
  | _ => exact same rfl

theorem all_count (s : Sys) (n : Nat) : s.all.count n = s.live.count n + (s.writeCh.filterMap (·.chan)).count n := by
  unfold Sys.all; rw [List.count_append]

theorem not_mem_of_count {l l' : List Nat} {n : Nat} (h : l'.count n + 1 ≤ l.count n) (h1 : l.count n ≤ 1) : n ∉ l' := by
  intro hm
  have := count_of_mem hm
  omega

theorem mem_of_count {l l' : List Nat} {n : Nat} (h : l'.count n + 1 ≤ l.count n) : n ∈ l :=
  List.one_le_count_iff.1 (by omega)

theorem serve_gives {s s' : Sys} (ha : AllInv s) (hmap : MapInv s) (hi : ServeInv s) (he : Ext s s') (heff : Eff s s')
    (hg : Gives s s') : ServeInv s' := by
  obtain ⟨hat, hc, h1, ht, hs, hw, hl, hch⟩ := hg
  rename_i f n0 bb s1
  have hn0 : n0 ∈ s.all := List.mem_append_left _ (atSend_live hmap hat)
  have hcount : ∀ n, s'.all.count n ≤ s.all.count n := by
    intro n
    rw [all_count, all_count, hw]
    refine Nat.add_le_add_right ?_ _
    rcases hl with ⟨id, hl, g1, g2⟩ | ⟨hl, g1, g2, _⟩ | ⟨g2, g1, _⟩
    · rw [g2]
      refine Nat.le_trans count_del ?_
      unfold Sys.live; rw [hl]
      exact Nat.le_refl _
    · rw [g2]; exact Nat.le_refl _
    · rw [g2, List.count_cons]; omega
  have hgone : (f.command = Cmd.message ∧ ChansOk s s' none) ∨ s'.all.count n0 + 1 ≤ s.all.count n0 := by
    rcases hl with ⟨id, hl, g1, g2⟩ | ⟨hl, g1, g2, g3⟩ | ⟨g2, g1, _⟩
    · right
      rw [all_count, all_count, hw, g2]
      have := count_del_hit (hmap.receipt _ _ _ hl)
      have h2 : s.live = s.channels.map (·.2) := by unfold Sys.live; rw [hl]
      rw [h2]
      omega
    · exact .inl ⟨(ha.reg.message _ _ hl).1, g3⟩
    · right
      rw [all_count, all_count, hw, g2, List.count_cons]
      simp only [beq_self_eq_true, if_true]
      omega
  refine serve_mk (New := fun _ => False) ha hmap hi he heff ?_ (fun n _ => .inl (hcount n)) ?_ ?_ ?_ ?_ (fun _ h => h.elim)
  · intro n hn
    exact .inl (List.one_le_count_iff.1 (Nat.le_trans (count_of_mem hn) (hcount n)))
  · intro n hn
    rcases hgone with ⟨_, g⟩ | g
    · rcases g n hn with h | h
      · cases h
      · exact .inl h
    · rcases hch n hn with h | h
      · cases h
        exact .inr ⟨hn0, fun hs => not_mem_of_count g (hi.one _ hs)⟩
      · exact .inl h
  · intro n hn hn' t c th th' hcn hth hth' hp
    rw [ht] at hth'
    rcases handOver_threads ha.origin h1 hth hth' with rfl | ⟨⟨c', k1⟩, k2, _, k3⟩
    · exact hp
    · have e : n = n0 := by
        rcases hp with hp | hp
        · rw [k2] at hp; cases hp; rfl
        · have := Thread.left_past hp
          rw [k2] at this
          cases this
      subst e
      rcases hgone with ⟨g, _⟩ | g
      · exact .inr (k3 g)
      · exact absurd hn (not_mem_of_count g (hi.one _ (caller_single ha.origin k1)))
  · intro n hn hn' hsg i c b b' hcn hb hbn hb' hp
    rw [hs] at hb'
    rcases handOver_subs h1 hb hb' with k | ⟨⟨c', k1⟩, k2, k3⟩
    · rw [k]; exact hp
    · obtain ⟨u, r, hr, hrn⟩ := all_acc ha.order hmap hn0
      obtain ⟨th, hth, hq⟩ := ha.origin.acc u r hr
      have e : n0 = n := by
        rcases reqOf_owner hq hrn with ⟨j, c'', b2, q1, q2, q3, _⟩ | ⟨c'', q1, _⟩
        · rw [k1] at q1; cases q1
          rw [hb] at q2; cases q2
          rw [← q3, hbn]
        · rw [k1] at q1; cases q1
      subst e
      rcases hgone with ⟨g, _⟩ | g
      · exact .inr ⟨_, k3 g⟩
      · exact absurd hn (not_mem_of_count g (hi.one _ hsg))
  · intro i b b' hb hb' hrl hcb hnb
    rw [hs] at hb'
    rcases handOver_subs h1 hb hb' with k | ⟨⟨c', k1⟩, k2, k3⟩
    · rw [k]; exact hrl
    · obtain ⟨u, r, hr, hrn⟩ := all_acc ha.order hmap hn0
      obtain ⟨th, hth, hq⟩ := ha.origin.acc u r hr
      rcases reqOf_owner hq hrn with ⟨j, c'', b2, q1, q2, q3, _⟩ | ⟨c'', q1, _⟩
      · rw [k1] at q1; cases q1
        rw [hb] at q2; cases q2
        rw [q3] at hnb
        exact absurd hn0 hnb
      · rw [k1] at q1; cases q1

theorem serve_moves {cfg : Cfg} {s s' : Sys} (ha : AllInv s) (hmap : MapInv s) (hi : ServeInv s) (he : Ext s s') (heff : Eff s s')
    (hth : ∀ (t : Nat) (th th' : Thread), s.threads[t]? = some th → s'.threads[t]? = some th' → ThMove cfg s th th')
    (hrl : ∀ (i : Nat) (b b' : Sub), s.subs[i]? = some b → s'.subs[i]? = some b' → RlMove s b b')
    (hlv : LiveMove s s') : ServeInv s' := by
  -- the parts about callers and subscriptions
  have thr : ∀ n ∈ s'.all, n ∈ s.all → ∀ (t : Nat) (c : Bool) (th th' : Thread), s.chans[n]? = some ⟨.caller t, c⟩ → s.threads[t]? = some th →
      s'.threads[t]? = some th' → (th.pc = .wait n ∨ th.left) → (th'.pc = .wait n ∨ th'.left) := by
    intro n _ hn t c th th' hc ht ht' hp
    have hcall := (he.threads t th ht)
    obtain ⟨th2, e1, e2⟩ := hcall
    rw [ht'] at e1
    cases e1
    cases hth t th th' ht ht' with
    | same h =>
      rcases hp with hp | hp
      · exact .inl (h.trans hp)
      · refine .inr ?_
        unfold Thread.left at hp ⊢
        rw [e2, h]
        exact hp
    | early h =>
      rcases hp with hp | hp
      · rw [hp] at h; cases h
      · have := Thread.left_past hp
        revert h this
        cases th.pc <;> simp [Pc.early, Pc.past]
    | gaveUp h h' => exact .inr (Thread.gaveUp_left h')
    | @closed m h hcl =>
      exfalso
      rcases hp with hp | hp
      · rw [h] at hp; cases hp
        rw [hi.opened n hn (caller_single ha.origin hc)] at hcl
        cases hcl
      · have := Thread.left_past hp
        rw [h] at this
        cases this
    | past hc h h' =>
      refine .inr ?_
      unfold Thread.left
      rw [e2, hc]
      exact h'
  have rlv : ∀ n ∈ s'.all, n ∈ s.all → Single s n → ∀ (i : Nat) (c : Bool) (b b' : Sub), s.chans[n]? = some ⟨.sub i, c⟩ →
      s.subs[i]? = some b → b.chan = n → s'.subs[i]? = some b' → (b.rl = .recv ∨ ∃ m, b.rl = .put m) →
      (b'.rl = .recv ∨ ∃ m, b'.rl = .put m) := by
    intro n _ hn hs i c b b' hc hb hbn hb' hp
    cases hrl i b b' hb hb' with
    | same h => rw [h]; exact hp
    | put h h' => exact .inl h'
    | closed h hcl => rw [hbn, hi.opened n hn hs] at hcl; cases hcl
    | ending h =>
      rcases hp with hp | ⟨m, hp⟩ <;> rw [hp] at h <;> rcases h with ⟨_, h⟩ | ⟨_, h⟩ <;> cases h
  have rlp : ∀ (i : Nat) (b b' : Sub), s.subs[i]? = some b → s'.subs[i]? = some b' → b.rl = .recv → s.chanClosed b.chan = false →
      b'.rl = .recv := by
    intro i b b' hb hb' hr hcl
    cases hrl i b b' hb hb' with
    | same h => rw [h]; exact hr
    | put h h' => exact h'
    | closed h hcl' => rw [hcl] at hcl'; cases hcl'
    | ending h => rw [hr] at h; rcases h with ⟨_, h⟩ | ⟨_, h⟩ <;> cases h
  have simple : (∀ n, s'.all.count n ≤ s.all.count n) → ChansOk s s' none → ServeInv s' := by
    intro h hc
    refine serve_mk (New := fun _ => False) ha hmap hi he heff (fun n hn => .inl ?_) (fun n _ => .inl (h n)) (fun n hn => ?_) thr rlv
      (fun i b b' h1 h2 h3 h4 _ => rlp i b b' h1 h2 h3 h4) (fun _ h => h.elim)
    · exact List.one_le_count_iff.1 (Nat.le_trans (count_of_mem hn) (h n))
    · rcases hc n hn with h | h
      · cases h
      · exact .inl h
  cases hlv with
  | quiet h h2 hw hc =>
    refine simple (fun n => ?_) hc
    rw [all_count, all_count, hw, h.count_eq]
    exact Nat.le_refl _
  | over h0 h h2 hw hc =>
    refine simple (fun n => ?_) hc
    rw [all_count, all_count, hw, h]
    simp
  | @push t th r ht hpc h h2 hw hc hthp =>
    have hck := (ha.origin.callers t th ht).push r hpc
    have hfresh : ∀ n, r.chan = some n → n ∉ s.all := by
      intro n hn h
      obtain ⟨u, r', hr, hrn⟩ := all_acc ha.order hmap h
      exact hck.2 u r' n hr hn hrn
    have hcnt : ∀ n, s'.all.count n = s.all.count n + if r.chan = some n then 1 else 0 := by
      intro n
      rw [all_count, all_count, hw, h, List.filterMap_append, List.count_append]
      cases hr : r.chan with
      | none => simp [hr]
      | some m => simp [hr, List.count_cons]; omega
    refine serve_mk (New := fun n => r.chan = some n) ha hmap hi he heff (fun n hn => ?_) (fun n _ => ?_) (fun n hn => ?_) thr rlv
      (fun i b b' h1 h2 h3 h4 _ => rlp i b b' h1 h2 h3 h4) (fun n hn => ?_)
    · by_cases e : r.chan = some n
      · exact .inr e
      · have := count_of_mem hn
        rw [hcnt n, if_neg e] at this
        exact .inl (List.one_le_count_iff.1 this)
    · by_cases e : r.chan = some n
      · refine .inr ⟨e, ?_⟩
        rw [hcnt n, if_pos e, List.count_eq_zero_of_not_mem (hfresh n e)]
        exact Nat.le_refl _
      · left; rw [hcnt n, if_neg e]; exact Nat.le_refl _
    · rcases hc n hn with h | h
      · cases h
      · exact .inl h
    · obtain ⟨p1, p2⟩ := hi.push t th r n ht hpc hn
      refine ⟨hfresh n hn, p1, ?_, ?_⟩
      · intro u c th' hc' ht'
        rcases reqOf_owner hck.1 hn with ⟨j, c', b, k1, k2, k3, _⟩ | ⟨c', k1, k2, _⟩
        · have := chans_back he k1 hc'
          rw [k1] at this
          cases this
        · have := chans_back he k1 hc'
          rw [k1] at this
          cases this
          exact hthp th' ht' n hn k2
      · intro i c b' hc' hb'
        rcases reqOf_owner hck.1 hn with ⟨j, c', b, k1, k2, k3, _⟩ | ⟨c', k1, k2, _⟩
        · have := chans_back he k1 hc'
          rw [k1] at this
          cases this
          exact rlp i b b' k2 hb' (p2 i c' b k1 k2) (by rw [k3]; exact p1)
        · have := chans_back he k1 hc'
          rw [k1] at this
          cases this
  | @took r rest hl hw hw' h h2 hc hcl htr =>
    have hacc : ∃ t, (t, r) ∈ acceptedIn s.trace :=
      mem_handedIn (tr := s.trace) (r := r) (by rw [ha.order.queue, hw]; simp)
    obtain ⟨t, hacc⟩ := hacc
    have hsc : ∀ n, s.all.count n = (s.channels.map (·.2)).count n + (if r.chan = some n then 1 else 0) + (rest.filterMap (·.chan)).count n := by
      intro n
      rw [all_count, live_select hl, hw, List.filterMap_cons]
      cases hr : r.chan with
      | none => simp
      | some m => simp [List.count_cons]; omega
    have hsc' : ∀ n, s'.all.count n = ((handleWrite s.channels r).1.map (·.2)).count n + (rest.filterMap (·.chan)).count n := by
      intro n
      rw [all_count, hw', h.count_eq]
    refine serve_mk (New := fun _ => False) ha hmap hi he heff (fun n hn => .inl ?_) (fun n hs => .inl ?_) (fun n hn => ?_) thr rlv
      (fun i b b' h1 h2 h3 h4 _ => rlp i b b' h1 h2 h3 h4) (fun _ h => h.elim)
    · unfold Sys.all at hn ⊢
      rw [live_select hl, hw, List.mem_append, List.filterMap_cons]
      rw [hw', List.mem_append] at hn
      rcases hn with hn | hn
      · rcases took_mem (h.mem_iff.1 hn) with g | g
        · exact .inl g
        · right; rw [g]; exact List.mem_cons_self ..
      · right
        split
        · exact hn
        · exact List.mem_cons_of_mem _ hn
    · rw [hsc, hsc']
      have := took_count (m := s.channels) (r := r) (n := n) (fun g1 g2 => hs t r hacc g1 g2)
      omega
    · rcases hc n hn with g | g
      · right
        have := took_closed g
        have hc1 : s'.all.count n + 1 ≤ s.all.count n := by rw [hsc, hsc']; omega
        exact ⟨mem_of_count hc1, fun hs => not_mem_of_count hc1 (hi.one _ hs)⟩
      · exact .inl g

theorem serve_step {cfg : Cfg} {s s' : Sys} (ha : AllInv s) (hmap : MapInv s) (hi : ServeInv s) (h : Step cfg s s') : ServeInv s' := by
  rcases th_step h with hg | h1
  · exact serve_gives ha hmap hi (ext_step h) (eff_step h) hg
  rcases rl_step h with hg | h2
  · exact serve_gives ha hmap hi (ext_step h) (eff_step h) hg
  rcases live_step h with hg | h3
  · exact serve_gives ha hmap hi (ext_step h) (eff_step h) hg
  exact serve_moves ha hmap hi (ext_step h) (eff_step h) h1 h2 h3

theorem serve_init (n : Nat) : ServeInv (Sys.init n) := by
  constructor
  · intro n h; exact Nat.zero_le _
  · intro n h; cases h
  · intro n h; cases h
  · intro n h; cases h
  · intro t th r n h; cases h

structure FullInv (s : Sys) : Prop where
  all : AllInv s
  map : MapInv s
  serve : ServeInv s

theorem full_step {cfg : Cfg} {s s' : Sys} {e : Ev} (hp : FullInv s) (h : s.step cfg e = some s') : FullInv s' := by
  have hs := (step_cases h).2
  exact ⟨⟨lock_step hp.all.lock h, order_step hp.all.order hs, origin_step hp.all.lock hp.all.origin (ext_step hs) (eff_step hs),
      reg_step hp.all.order hp.all.reg hs, done_step hp.all.origin hp.all.reg hp.all.done hs⟩,
    map_step hp.all.order hp.map hs, serve_step hp.all hp.map hp.serve hs⟩

theorem full_run {cfg : Cfg} {n : Nat} {s : Sys} {es : List Ev} (h : (Sys.init n).run cfg es = some s) : FullInv s :=
  run_induction (P := FullInv) (fun _ _ _ hp h => full_step hp h) es _ _
    ⟨all_run (cfg := cfg) (es := []) rfl, map_init n, serve_init n⟩ h

end Stomp.Client
