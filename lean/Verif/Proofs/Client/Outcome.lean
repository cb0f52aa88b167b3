import Verif.Proofs.Client.Told
import Verif.Proofs.Client.Wake
/-! # What callers and subscriptions are told of the end of the connection -/
namespace Stomp.Client
open Stomp

/-! ## Callers -/

/-- The call waits for its receipt, or has returned an error. -/
def Failing (t : Nat) (s : Sys) : Prop :=
  ∃ th, s.threads[t]? = some th ∧ (∀ i o, th.call ≠ .unsubscribe i o) ∧
    ((∃ n, th.pc = .wait n) ∨ ∃ r, th.pc = .ret r ∧ r ≠ .ok ∧ r ≠ .closeError)

theorem handOver_error {s s1 : Sys} {n : Nat} {f : Frame} {b : Bool} (hf : f.command = Cmd.error) (h : s.handOver n f b = some s1)
    {u : Nat} (hu : Failing u s) : Failing u s1 := by
  have hr : resOf f = .response f := by unfold resOf; rw [if_neg (by rw [hf]; decide)]
  obtain ⟨th, hth, hcall, hp⟩ := hu
  have key : ∀ {t : Nat} {g : Thread → Thread}, s1.threads = s.threads.modify t g → (∀ th, s.threads[t]? = some th → (g th).call = th.call) →
      (t = u → ∃ r, (g th).pc = .ret r ∧ r ≠ .ok ∧ r ≠ .closeError) → Failing u s1 := by
    intro t g h1 h2 h3
    obtain ⟨th', hth', hm⟩ : ∃ th', s1.threads[u]? = some th' ∧ ((t = u ∧ th' = g th) ∨ th' = th) := by
      rw [h1, List.getElem?_modify, hth]
      by_cases e : t = u
      · exact ⟨g th, by simp [e], .inl ⟨e, rfl⟩⟩
      · exact ⟨th, by simp [e], .inr rfl⟩
    rcases hm with ⟨rfl, rfl⟩ | rfl
    · exact ⟨_, hth', by rw [h2 _ hth]; exact hcall, .inr (h3 rfl)⟩
    · exact ⟨_, hth', hcall, hp⟩
  cases handOver_cases h with
  | send hn ht hpc hc => exact key rfl (fun _ _ => rfl) (fun _ => ⟨_, rfl, by rw [hr]; simp, by rw [hr]; simp⟩)
  | discOk hn ht hpc hc hf' => rw [hf] at hf'; exact absurd hf' (by decide)
  | discErr hn ht hpc hc hf' => exact key rfl (fun _ _ => rfl) (fun _ => ⟨_, rfl, by simp, by simp⟩)
  | @frame t th0 c hn ht hpc hc =>
    obtain ⟨pc, _, _, _, hth1, hpc1⟩ := frameDone_spec s t th0.call (resOf f)
    refine key hth1 (fun _ _ => rfl) (fun e => ?_)
    subst e
    rw [ht] at hth
    cases hth
    rcases hpc1 with ⟨rfl, _, _⟩ | ⟨_, ⟨i, o, hc'⟩, _⟩
    · exact ⟨_, rfl, by rw [hr]; simp, by rw [hr]; simp⟩
    · exact absurd hc' (hcall i o)
  | sub => exact ⟨th, hth, hcall, hp⟩

theorem failing_step {cfg : Cfg} {s s' : Sys} (ha : AllInv s) (h : Step cfg s s') (hl : s.loop.ended = true) {t : Nat}
    (hf : Failing t s) : Failing t s' := by
  rcases th_step h with hg | hth
  · obtain ⟨hat, hc, h1, ht, hs, hw, hl', hch⟩ := hg
    rename_i f n b s1
    have hfe : f.command = Cmd.error := by
      rcases hat with ⟨_, e⟩ | e | ⟨_, e⟩ | ⟨_, e⟩
      · rw [e] at hl; cases hl
      · rw [e] at hl; cases hl
      · exact ha.reg.errs _ _ e
      · exact ha.reg.fail _ _ e
    obtain ⟨th, h2, h3⟩ := handOver_error hfe h1 hf
    exact ⟨th, by rw [ht]; exact h2, h3⟩
  · obtain ⟨th, h1, hcall, hp⟩ := hf
    obtain ⟨th', h2, hc⟩ := (ext_step h).threads t th h1
    refine ⟨th', h2, by rw [hc]; exact hcall, ?_⟩
    have gave : th'.gaveUp → ((∃ n, th'.pc = .wait n) ∨ ∃ r, th'.pc = .ret r ∧ r ≠ .ok ∧ r ≠ .closeError) := by
      intro g
      unfold Thread.gaveUp at g
      split at g
      · exact .inr ⟨_, g, by simp, by simp⟩
      · exact .inr ⟨_, g, by simp, by simp⟩
      · rename_i i o e; rw [hc] at e; exact absurd e (hcall i o)
      · exact .inr ⟨_, g, by simp, by simp⟩
    cases hth t th th' h1 h2 with
    | same e => rw [e]; exact hp
    | early e =>
      rcases hp with ⟨n, hp⟩ | ⟨r, hp, _⟩ <;> rw [hp] at e <;> cases e
    | gaveUp _ g => exact gave g
    | closed _ _ g => exact gave g
    | past hu => exact absurd hu (hcall _ _)

theorem failing_run {cfg : Cfg} {s s' : Sys} {es : List Ev} (hi : FullInv s) (hl : s.loop.ended = true) {t : Nat} (hf : Failing t s)
    (h : s.run cfg es = some s') : Failing t s' :=
  (run_induction (P := fun s => FullInv s ∧ s.loop.ended = true ∧ Failing t s)
    (fun _ _ _ hp h => ⟨full_step hp.1 h, ended_step (step_cases h).2 hp.2.1, failing_step hp.1.all (step_cases h).2 hp.2.1 hp.2.2⟩)
    es s s' ⟨hi, hl, hf⟩ h).2.2

/-! ## Subscriptions -/

/-- A message made by the client to report an error. -/
def CMsg.isErr : CMsg → Bool
  | .msg _ => false
  | _ => true

theorem isErr_of {m : CMsg} (h : m.frame? = none) : m.isErr = true := by
  cases m <;> first | rfl | cases h

/-- A RECEIPT with the id `k` was taken from the network. -/
def ReceiptTaken (s : Sys) (k : Bytes) : Prop :=
  ∃ g : Frame, .took (some g) ∈ s.trace ∧ g.command = Cmd.receipt ∧ g.header.contains Hdr.receiptId = some k

/-- What is known of a `readLoop` that ends. -/
def Due (s : Sys) (b : Sub) : Prop :=
  ReceiptTaken s b.id ∨
  match b.rl with
  | .check m | .closing (.enter m) => ∃ e, m = some e ∧ e.isErr = true
  | .closing (.put m) => m.isErr = true
  | .closing _ | .done => ∃ e ∈ b.got, e.isErr = true
  | _ => True

structure EndInv (s : Sys) : Prop where
  told : ToldInv s
  sub : SubInv s
  u : UInv s
  took : ∀ (f : Frame) (id : Bytes) (n : Nat), s.loop = .receipt f id n → .took (some f) ∈ s.trace
  due : Spec.Distinct s → ∀ (i : Nat) (b : Sub), s.subs[i]? = some b → (∀ t p h, s.won t ≠ some (i, p, h)) → Due s b

theorem took_step {cfg : Cfg} {s s' : Sys} (hi : ∀ (f : Frame) (id : Bytes) (n : Nat), s.loop = .receipt f id n → .took (some f) ∈ s.trace)
    (h : Step cfg s s') : ∀ (f : Frame) (id : Bytes) (n : Nat), s'.loop = .receipt f id n → .took (some f) ∈ s'.trace := by
  intro f id n hl
  cases loopEff_step h with
  | quiet h1 h2 h3 => rw [h3]; exact List.mem_append_left _ (hi f id n (h1 ▸ hl))
  | stop _ h1 => rcases h1 with h1 | ⟨_, _, h1⟩ <;> rw [hl] at h1 <;> cases h1
  | skip h0 h1 => rw [h1, h0] at hl; cases hl
  | receipt h0 h1 h2 h3 => rw [h1] at hl; cases hl; rw [h3]; simp
  | message h0 h1 => rw [h1] at hl; cases hl
  | take h0 h1 => rcases h1 with h1 | ⟨_, _, h1⟩ <;> rw [hl] at h1 <;> cases h1
  | gaveReceipt _ h1 => rw [h1] at hl; cases hl
  | gaveMessage _ _ _ h1 => rw [h1] at hl; cases hl

theorem receiptTaken_ext {s s' : Sys} (he : Ext s s') {k : Bytes} (h : ReceiptTaken s k) : ReceiptTaken s' k := by
  obtain ⟨g, h1, h2⟩ := h
  obtain ⟨l, e⟩ := he.trace
  exact ⟨g, by rw [e]; exact List.mem_append_left _ h1, h2⟩

theorem due_congr {s s' : Sys} (he : Ext s s') {b b' : Sub} (h1 : b'.id = b.id) (h2 : b'.rl = b.rl) (h3 : b'.got = b.got) (h : Due s b) :
    Due s' b' := by
  rcases h with h | h
  · exact .inl (by rw [h1]; exact receiptTaken_ext he h)
  · right; rw [h2, h3]; exact h

theorem due_rl {s s' : Sys} (hi : EndInv s) (he : Ext s s') (hd : Spec.Distinct s) {i : Nat} {b b' : Sub} (hb : s.subs[i]? = some b)
    (hfree : SubOk b none) (h : RStep s b b') (hdue : Due s b) : Due s' b' := by
  have ha := hi.told.full.all
  cases h with
  | @recv f n hat hr ho =>
    obtain ⟨j, c, hn, hbj⟩ := ho
    have hacc := all_acc ha.order hi.told.full.map (List.mem_append_left _ (atSend_live hi.told.full.map hat))
    obtain ⟨u, r, hu, hrn⟩ := hacc
    obtain ⟨th, hth, hq⟩ := ha.origin.acc u r hu
    have hbn : b.chan = n := by
      rcases reqOf_owner hq hrn with ⟨j', c', b2, q1, q2, q3, _⟩ | ⟨c', q1, _⟩
      · rw [hn] at q1; cases q1
        rw [hbj] at q2; cases q2
        exact q3
      · rw [hn] at q1; cases q1
    rcases hat with ⟨id, e⟩ | e | ⟨l, e⟩ | ⟨l, e⟩
    · left
      obtain ⟨g1, g2, t', r', g3, g4, g5, _⟩ := ha.reg.receipt _ _ _ e
      have hid := ((own_sub hd ha.origin hi.sub hb).sub t' r' g3 (by rw [g4, hbn])).2 id
      have : id = b.id := hid.1 g5
      subst this
      exact receiptTaken_ext he ⟨f, hi.took _ _ _ e, g1, g2⟩
    · right
      simp only [rlRecv_message (ha.reg.message _ _ e).1]
    · right
      simp only [rlRecv_error (ha.reg.errs _ _ e)]
      exact ⟨_, rfl, rfl⟩
    · right
      simp only [rlRecv_error (ha.reg.fail _ _ e)]
      exact ⟨_, rfl, rfl⟩
  | eof hr hc => right; exact ⟨_, rfl, rfl⟩
  | put hr => right; trivial
  | checkClosed hr hs =>
    exfalso
    have := hfree.once
    rw [hr] at this
    rcases this with ⟨_, this⟩ | ⟨_, this⟩
    all_goals
      unfold OnceOk at this
      simp only [wonAt, RlPc.at?] at this
      split at this
      all_goals first
        | exact this.2 hs
        | exact this
        | skip
      all_goals first
        | cases ‹none = some _›
        | (rcases hfree.closer this.1 with e | e | ⟨_, e | e⟩ <;> first | (rw [hr] at e; cases e; done) | cases e)
  | @checkOpen m hr hs =>
    rcases hdue with hd | hd
    · exact .inl (receiptTaken_ext he hd)
    · right; rw [hr] at hd; exact hd
  | @closeNext p p' b' hr h =>
    rcases hdue with hd | hd
    · left
      have : b'.id = b.id := h.sub.1
      simp only [this]
      exact receiptTaken_ext he hd
    · right
      rw [hr] at hd
      cases h with
      | enterMsg => obtain ⟨e, h1, h2⟩ := hd; cases h1; exact h2
      | enterNone => obtain ⟨e, h1, h2⟩ := hd; cases h1
      | put => exact ⟨_, List.mem_append_right _ (List.mem_singleton_self _), hd⟩
      | store => exact hd
      | close => exact hd
  | @closeFin p b' hr h =>
    rcases hdue with hd | hd
    · left
      have : b'.id = b.id := h.sub.1
      simp only [this]
      exact receiptTaken_ext he hd
    · right
      rw [hr] at hd
      cases h with
      | skip ho =>
        exfalso
        have := hfree.once
        rw [hr] at this
        simp only [wonAt, RlPc.at?, ClosePc.inside, OnceOk, ho] at this
        have hcc : b.cClosed = true := by rcases this with ⟨_, h, _⟩ | ⟨_, h, _⟩ <;> exact h
        rcases hfree.closer hcc with e | e | ⟨_, e | e⟩ <;> first | (rw [hr] at e; cases e; done) | cases e
      | broadcast => exact hd

theorem end_step {cfg : Cfg} {s s' : Sys} {e : Ev} (hi : EndInv s) (h : s.step cfg e = some s') : EndInv s' := by
  have hs := (step_cases h).2
  have he := ext_step hs
  refine ⟨⟨full_step hi.told.full h, told_step hi.told.full hi.told.told hs⟩, subInv_step hi.sub hs, uinv_step hi.u hs, took_step hi.took hs, ?_⟩
  intro hd i b' hb' hfree
  have hd0 := distinct_ext he hd
  cases ueff_step (cfg := cfg) hi.u.dom hs with
  | quiet ht hsub =>
    rcases hsub i b' hb' with ⟨b, hb, heq⟩ | ⟨_, id, rt, n, _, rfl⟩
    · have hf : ∀ t p h, s.won t ≠ some (i, p, h) := fun t p h => by rw [← ht]; exact hfree t p h
      have := hi.due hd0 i b hb hf
      cases heq <;> exact due_congr he rfl rfl rfl this
    · right; trivial
  | @rl j b0 b1 ht hb hb1 hsb hr =>
    have hf : ∀ t p h, s.won t ≠ some (i, p, h) := fun t p h => by rw [← ht]; exact hfree t p h
    by_cases e : i = j
    · subst e
      rw [hb1] at hb'; cases hb'
      exact due_rl hi he hd0 hb (hi.u.free i b0 hb hf) hr (hi.due hd0 i b0 hb hf)
    · rw [hsb i e] at hb'
      exact due_congr (b := b') he rfl rfl rfl (hi.due hd0 i b' hb' hf)
  | @cas t j b0 pc ht ht' hw hb hb1 hsb =>
    by_cases e : i = j
    · subst e; exact absurd ht' (hfree t _ _)
    · rw [hsb i e] at hb'
      refine due_congr (b := b') he rfl rfl rfl (hi.due hd0 i b' hb' fun u p h => ?_)
      by_cases eu : u = t
      · subst eu; rw [ht]; simp
      · rw [← hw u eu]; exact hfree u p h
  | @thr t j b0 b1 pc pc' h0 h1 ht ht' hw hb hb1 hsb =>
    by_cases e : i = j
    · subst e; exact absurd ht' (hfree t _ _)
    · rw [hsb i e] at hb'
      refine due_congr (b := b') he rfl rfl rfl (hi.due hd0 i b' hb' fun u p h => ?_)
      by_cases eu : u = t
      · subst eu; rw [ht]; intro e2; cases e2; exact e rfl
      · rw [← hw u eu]; exact hfree u p h

theorem end_run {cfg : Cfg} {n : Nat} {s : Sys} {es : List Ev} (h : (Sys.init n).run cfg es = some s) : EndInv s := by
  refine run_induction (P := EndInv) (fun s e s' hp h => end_step hp h) es _ _ ⟨told_run (es := []) (cfg := cfg) rfl, (flow_run (es := []) (cfg := cfg) rfl).sub,
    uinv_init n, ?_, ?_⟩ h
  · intro f id n hl; cases hl
  · intro _ i b hb; simp [Sys.init] at hb

/-! ## `processLoop` goes on -/

theorem handOver_ready {s : Sys} {n t : Nat} {c : Bool} {th : Thread} {f : Frame} {b : Bool} (h1 : s.chans[n]? = some ⟨.caller t, c⟩)
    (h2 : s.threads[t]? = some th) (h3 : th.pc = .wait n) : ∃ s1, s.handOver n f b = some s1 := by
  unfold Sys.handOver
  rw [h1]
  simp only
  rw [h2]
  simp only
  rw [if_pos h3]
  exact ⟨_, rfl⟩

theorem handOver_ready_sub {s : Sys} {n i : Nat} {c : Bool} {d : Sub} {f : Frame} {b : Bool} (h1 : s.chans[n]? = some ⟨.sub i, c⟩)
    (h2 : s.subs[i]? = some d) (h3 : d.rl = .recv) : ∃ s1, s.handOver n f b = some s1 := by
  unfold Sys.handOver
  rw [h1]
  simp only
  rw [h2]
  simp only
  rw [if_pos h3]
  exact ⟨_, rfl⟩

theorem deliver_of {cfg : Cfg} {s s1 : Sys} {f : Frame} {n : Nat} {b : Bool} (hc : s.crashed = none) (hat : AtSend s f n)
    (h : s.handOver n f b = some s1) : ∃ s', s.step cfg (.deliver b) = some s' := by
  simp only [Sys.step, hc, Option.isSome_none, Bool.false_eq_true, if_false]
  unfold Sys.deliver
  rcases hat with ⟨id, e⟩ | e | ⟨l, e⟩ | ⟨l, e⟩
  all_goals
    rw [e]
    simp only
    split
    · exact ⟨_, rfl⟩
    · rw [h]; exact ⟨_, rfl⟩

/-- `processLoop` at a send: it goes on, or the receiver is gone, or is a subscription busy with the last message. -/
theorem deliver_ready {cfg : Cfg} {s : Sys} (hi : FullInv s) (hc : s.crashed = none) {f : Frame} {n : Nat} (hat : AtSend s f n)
    (hsg : Single s n) : (∃ s', s.step cfg (.deliver true) = some s') ∨
    (∃ (t : Nat) (th : Thread), s.chans[n]? = some ⟨.caller t, false⟩ ∧ s.threads[t]? = some th ∧ th.left) ∨
    (∃ (i : Nat) (b : Sub) (m : CMsg), s.chans[n]? = some ⟨.sub i, false⟩ ∧ s.subs[i]? = some b ∧ b.rl = .put m) := by
  have hn : n ∈ s.all := List.mem_append_left _ (atSend_live hi.map hat)
  have hop := hi.serve.opened n hn hsg
  obtain ⟨u, r, hu, hrn⟩ := all_acc hi.all.order hi.map hn
  obtain ⟨th, hth, hq⟩ := hi.all.origin.acc u r hu
  rcases reqOf_owner hq hrn with ⟨i, c, b, k1, k2, _⟩ | ⟨c, k1, _⟩
  · have := chanClosed_of k1
    rw [hop] at this
    subst this
    rcases hi.serve.sub n hn hsg i _ b k1 k2 with h | ⟨m, h⟩
    · obtain ⟨s1, h1⟩ := handOver_ready_sub (f := f) (b := true) k1 k2 h
      exact .inl (deliver_of hc hat h1)
    · exact .inr (.inr ⟨i, b, m, k1, k2, h⟩)
  · have := chanClosed_of k1
    rw [hop] at this
    subst this
    rcases hi.serve.caller n hn u _ th k1 hth with h | h
    · obtain ⟨s1, h1⟩ := handOver_ready (f := f) (b := true) k1 hth h
      exact .inl (deliver_of hc hat h1)
    · exact .inr (.inl ⟨u, th, k1, hth, h⟩)

theorem failWith_ready (s : Sys) (text : Bytes) : ∃ s', s.failWith text (s.channels.map (·.2)) = some s' := by
  unfold Sys.failWith
  rw [if_pos (List.isPerm_iff.2 (.refl _))]
  exact ⟨_, rfl⟩

theorem loopRead_ready {cfg : Cfg} {s : Sys} (hc : s.crashed = none) (hl : s.loop = .select) (hr : s.readCh ≠ [] ∨ s.readDone = true) :
    ∃ s', s.step cfg (.loopRead (s.channels.map (·.2))) = some s' := by
  simp only [Sys.step, hc, Option.isSome_none, Bool.false_eq_true, if_false, hl, if_true]
  unfold Sys.loopRead
  split
  · rename_i e
    rw [if_pos (hr.resolve_left (fun h => h e))]
    exact failWith_ready _ _
  · exact ⟨_, rfl⟩
  · dsimp only
    repeat' split
    all_goals first
      | exact ⟨_, rfl⟩
      | exact failWith_ready (Sys.mk ..) _
      | (rename_i h; exact absurd (List.isPerm_iff.2 (.refl _)) h)

theorem takeReq_net (s : Sys) (r : Req) (rest : List Req) : (s.takeReq r rest).1.netClosed = s.netClosed := by
  unfold Sys.takeReq
  dsimp only
  split
  · unfold Sys.closeChan
    split <;> rfl
  · rfl

theorem loopWrite_ready {cfg : Cfg} {s : Sys} (hc : s.crashed = none) (hl : s.loop = .select) (hr : s.writeCh ≠ [] ∨ s.writeClosed = true) :
    ∃ order s', s.step cfg (.loopWrite (!s.netClosed) order) = some s' := by
  simp only [Sys.step, hc, Option.isSome_none, Bool.false_eq_true, if_false, hl, if_true]
  unfold Sys.loopWrite
  split
  · rename_i e
    simp only [hr.resolve_left (fun h => h e), if_true]
    exact ⟨_, failWith_ready _ _⟩
  · rename_i r rest _
    split
    · exact ⟨[], _, rfl⟩
    · rename_i s1 f e
      have hn : s1.netClosed = s.netClosed := by
        have := takeReq_net s r rest
        rw [e] at this
        exact this
      cases hb : s.netClosed with
      | false =>
        rw [hb] at hn
        simp only [Bool.not_false, if_true, hn, Bool.false_eq_true, if_false]
        exact ⟨[], _, rfl⟩
      | true =>
        simp only [Bool.not_true, Bool.false_eq_true, if_false]
        exact ⟨_, failWith_ready (s1.log (.failed f)) _⟩

/-! ## A subscription that `processLoop` does not know of when it ends -/

/-- `processLoop` has returned, `readLoop` of the subscription waits on an open channel, and nothing was put on `C`
unless there is an `Unsubscribe`. -/
structure Deaf (i n : Nat) (got : List CMsg) (s : Sys) : Prop where
  u : UInv s
  loop : s.loop = .done
  chan : ∃ o, s.chans[n]? = some ⟨o, false⟩
  sub : ∃ b, s.subs[i]? = some b ∧ b.chan = n ∧ b.rl = .recv ∧ (b.got = got ∨ ∃ t p h, s.won t = some (i, p, h))

theorem deaf_step {cfg : Cfg} {s s' : Sys} {i n : Nat} {got : List CMsg} (hd : Deaf i n got s) (h : Step cfg s s') : Deaf i n got s' := by
  have hl : s.loop ≠ .select := by rw [hd.loop]; exact (fun h => by cases h)
  have hat : ∀ f n, ¬ AtSend s f n := by
    rintro f n (⟨_, e⟩ | e | ⟨_, e⟩ | ⟨_, e⟩) <;> rw [hd.loop] at e <;> cases e
  have hng : ¬ Gives s s' := by rintro ⟨h, _⟩; exact hat _ _ h
  have hr : Rests s s' := by
    rcases rests_step h hl with h1 | h1 | h1
    · exact absurd h1 hng
    · rcases h1.2 with ⟨_, e⟩ | ⟨_, e⟩ <;> rw [hd.loop] at e <;> cases e
    · exact h1
  have hc : ChansOk s s' none := (chans_step h hl).resolve_left hng
  obtain ⟨o, ho⟩ := hd.chan
  obtain ⟨b, hb, hbn, hrl, hgot⟩ := hd.sub
  obtain ⟨b', hb', _, _, hbc⟩ := (ext_step h).subs i b hb
  refine ⟨uinv_step hd.u h, by rw [hr.1]; exact hd.loop, ⟨o, chan_keep (ext_step h) hc ho⟩, b', hb', by rw [hbc]; exact hbn, ?_, ?_⟩
  · cases ((rl_step h).resolve_left hng) i b b' hb hb' with
    | same e => rw [e]; exact hrl
    | put e => rw [hrl] at e; cases e
    | closed _ hcl => rw [hbn, chanClosed_of ho] at hcl; cases hcl
    | ending e => rcases e with ⟨_, e⟩ | ⟨_, e⟩ <;> rw [hrl] at e <;> cases e
  · cases ueff_step (cfg := cfg) hd.u.dom h with
    | quiet ht hsub =>
      rcases hgot with hgot | ⟨t, p, k, hw⟩
      · left
        rcases hsub i b' hb' with ⟨b0, hb0, heq⟩ | ⟨e, _⟩
        · rw [hb] at hb0; cases hb0
          cases heq <;> exact hgot
        · have := (List.getElem?_eq_some_iff.1 hb).1
          omega
      · exact .inr ⟨t, p, k, by rw [ht]; exact hw⟩
    | @rl j b0 b1 ht hb0 hb1 hsb hstep =>
      rcases hgot with hgot | ⟨t, p, k, hw⟩
      · left
        by_cases e : i = j
        · subst e
          rw [hb] at hb0; cases hb0
          rw [hb'] at hb1; cases hb1
          cases hstep with
          | recv ha => exact absurd ha (hat _ _)
          | eof => exact hgot
          | put hr => rw [hrl] at hr; cases hr
          | checkClosed hr => rw [hrl] at hr; cases hr
          | checkOpen hr => rw [hrl] at hr; cases hr
          | closeNext hr => rw [hrl] at hr; cases hr
          | closeFin hr => rw [hrl] at hr; cases hr
        · rw [hsb i e, hb] at hb'; cases hb'; exact hgot
      · exact .inr ⟨t, p, k, by rw [ht]; exact hw⟩
    | @cas t j b0 pc ht ht' hw hb0 hb1 hsb =>
      by_cases e : i = j
      · subst e; exact .inr ⟨t, _, _, ht'⟩
      · rw [hsb i e, hb] at hb'; cases hb'
        rcases hgot with hgot | ⟨u, p, k, hwu⟩
        · exact .inl hgot
        · by_cases eu : u = t
          · subst eu; rw [ht] at hwu; cases hwu
          · exact .inr ⟨u, p, k, by rw [hw u eu]; exact hwu⟩
    | @thr t j b0 b1 pc pc' h0 h1 ht ht' hw hb0 hb1 hsb =>
      by_cases e : i = j
      · subst e; exact .inr ⟨t, _, _, ht'⟩
      · rw [hsb i e, hb] at hb'; cases hb'
        rcases hgot with hgot | ⟨u, p, k, hwu⟩
        · exact .inl hgot
        · by_cases eu : u = t
          · subst eu; rw [ht] at hwu; cases hwu; exact absurd rfl e
          · exact .inr ⟨u, p, k, by rw [hw u eu]; exact hwu⟩

theorem deaf_run {cfg : Cfg} {s s' : Sys} {i n : Nat} {got : List CMsg} {es : List Ev} (hd : Deaf i n got s)
    (h : s.run cfg es = some s') : Deaf i n got s' :=
  run_induction (P := Deaf i n got) (fun _ _ _ hp h => deaf_step hp (step_cases h).2) es s s' hd h

/-! ## The error gets to `C` -/

/-- With nothing but `readLoop` of the subscription and the user's reading from `C`, an error is put on `C`. -/
def Reach (cfg : Cfg) (i : Nat) (s : Sys) : Prop :=
  ∃ (es : List Ev) (s' : Sys) (b' : Sub), (∀ e ∈ es, e = .sub i ∨ e = .take i) ∧ s.run cfg es = some s' ∧ s'.subs[i]? = some b' ∧
    ∃ m ∈ b'.got, m.isErr = true

theorem reach_cons {cfg : Cfg} {i : Nat} {s s' : Sys} {e : Ev} (he : e = .sub i ∨ e = .take i) (h : s.step cfg e = some s')
    (hr : Reach cfg i s') : Reach cfg i s := by
  obtain ⟨es, s2, b, h1, h2, h3⟩ := hr
  refine ⟨e :: es, s2, b, ?_, ?_, h3⟩
  · intro x hx
    rcases List.mem_cons.1 hx with rfl | hx
    · exact he
    · exact h1 x hx
  · simp only [Sys.run, h, Option.bind_some]; exact h2

/-- The user empties `C`. -/
theorem reach_drain {cfg : Cfg} {i : Nat} : ∀ (l : List CMsg) {s : Sys} {b : Sub}, s.crashed = none → s.subs[i]? = some b → b.buf = l →
    (∀ s', s'.crashed = none → s'.chans = s.chans → s'.subs[i]? = some { b with buf := [] } → Reach cfg i s') → Reach cfg i s
  | [], s, b, hc, hb, hl, k => k s hc rfl (by rw [hb, ← hl])
  | m :: l, s, b, hc, hb, hl, k => by
    have hb' := set_get (b' := { b with buf := l }) hb
    refine reach_cons (s' := s.setSub i { b with buf := l }) (.inr rfl) ?_ ?_
    · simp only [Sys.step, hc, Option.isSome_none, Bool.false_eq_true, if_false]
      rw [hb]
      simp only
      rw [hl]
    · exact reach_drain l (s := s.setSub i { b with buf := l }) hc hb' rfl (fun s' h1 h2 h3 => k s' h1 h2 h3)

theorem sub_event {cfg : Cfg} {s s' : Sys} {i : Nat} {b : Sub} (hc : s.crashed = none) (_hb : s.subs[i]? = some b)
    (h : s.subStep i = some s') : s.step cfg (.sub i) = some s' := by
  simp only [Sys.step, hc, Option.isSome_none, Bool.false_eq_true, if_false]
  exact h

theorem reach_put {cfg : Cfg} {i : Nat} {s : Sys} {b : Sub} {m : CMsg} (hc : s.crashed = none) (hb : s.subs[i]? = some b)
    (hr : b.rl = .closing (.put m)) (hcc : b.cClosed = false) (hm : m.isErr = true) : Reach cfg i s := by
  refine reach_drain b.buf hc hb rfl fun s1 h1 _ h3 => ?_
  refine reach_cons (.inl rfl) (sub_event h1 h3 (s' := s1.setSub i { b with buf := [m], got := b.got ++ [m], rl := .closing .store }) ?_)
    ⟨[], _, _, by simp, rfl, set_get h3, m, List.mem_append_right _ (List.mem_singleton_self _), hm⟩
  unfold Sys.subStep
  rw [h3]
  simp [hr, closeStep, hcc]

theorem reach_enter {cfg : Cfg} {i : Nat} {s : Sys} {b : Sub} {m : CMsg} (hc : s.crashed = none) (hb : s.subs[i]? = some b)
    (hr : b.rl = .closing (.enter (some m))) (ho : b.once = .idle) (hcc : b.cClosed = false) (hm : m.isErr = true) : Reach cfg i s := by
  refine reach_cons (.inl rfl) (sub_event hc hb (s' := s.setSub i { b with once := .running, rl := .closing (.put m) }) ?_)
    (reach_put hc (set_get hb) rfl hcc hm)
  unfold Sys.subStep
  rw [hb]
  simp [hr, closeStep, ho]

theorem reach_check {cfg : Cfg} {i : Nat} {s : Sys} {b : Sub} {m : CMsg} (hc : s.crashed = none) (hb : s.subs[i]? = some b)
    (hr : b.rl = .check (some m)) (hs : b.state ≠ .closed) (ho : b.once = .idle) (hcc : b.cClosed = false) (hm : m.isErr = true) :
    Reach cfg i s := by
  refine reach_cons (.inl rfl) (sub_event hc hb (s' := s.setSub i { b with rl := .closing (.enter (some m)) }) ?_)
    (reach_enter hc (set_get hb) rfl ho hcc hm)
  unfold Sys.subStep
  rw [hb]
  simp [hr, hs]

theorem reach_recv {cfg : Cfg} {i : Nat} {s : Sys} {b : Sub} (hc : s.crashed = none) (hb : s.subs[i]? = some b)
    (hr : b.rl = .recv) (hcl : s.chanClosed b.chan = true) (hs : b.state ≠ .closed) (ho : b.once = .idle) (hcc : b.cClosed = false) :
    Reach cfg i s := by
  refine reach_cons (.inl rfl) (sub_event hc hb (s' := s.setSub i { b with rl := .check (some .readFailed) }) ?_)
    (reach_check hc (set_get hb) rfl hs ho hcc rfl)
  unfold Sys.subStep
  rw [hb]
  simp [hr, hcl]

theorem reach_msg {cfg : Cfg} {i : Nat} {s : Sys} {b : Sub} {m : CMsg} (hc : s.crashed = none) (hb : s.subs[i]? = some b)
    (hr : b.rl = .put m) (hcl : s.chanClosed b.chan = true) (hs : b.state ≠ .closed) (ho : b.once = .idle) (hcc : b.cClosed = false) :
    Reach cfg i s := by
  refine reach_drain b.buf hc hb rfl fun s1 h1 h2 h3 => ?_
  refine reach_cons (.inl rfl) (sub_event h1 h3 (s' := s1.setSub i { b with buf := [m], got := b.got ++ [m], rl := .recv }) ?_)
    (reach_recv h1 (set_get h3) rfl ?_ hs ho hcc)
  · unfold Sys.subStep
    rw [h3]
    simp [hr, hcc]
  · exact (chanClosed_congr (s := s) h2 _).trans hcl

/-- `closeOnce` has not run while `readLoop` is in front of it and there is no `Unsubscribe`. -/
theorem free_idle {b : Sub} (h : SubOk b none) (hr : b.rl.at? = none) (hd : b.rl ≠ .done) :
    b.once = .idle ∧ b.cClosed = false ∧ b.state ≠ .closed := by
  have hcc : b.cClosed = false := Bool.eq_false_iff.2 fun hcc => by
    rcases h.closer hcc with e | e | ⟨_, e | e⟩
    · rw [e] at hr; cases hr
    · exact hd e
    · cases e
    · cases e
  have := h.once
  rw [hr] at this
  simp only [wonAt] at this
  have : OnceOk b none := by rcases this with ⟨_, h⟩ | ⟨_, h⟩ <;> exact h
  unfold OnceOk at this
  split at this
  · exact ⟨by assumption, this⟩
  · contradiction
  · contradiction
  · contradiction
  · rw [this.1] at hcc; cases hcc
  · contradiction

end Stomp.Client
