import Verif.Spec.Read
import Verif.Proofs.Client.Wake
import Verif.Proofs.Client.Stuck
/-! # `Subscription.Read` -/
namespace Stomp.Client
open Stomp

/-! ## Only the user takes from `C` -/

/-- What is put on the channels `C` is appended to their buffers. -/
def Grow (s s' : Sys) : Prop := ∀ (i : Nat) (b : Sub), s.subs[i]? = some b →
  ∃ b' l, s'.subs[i]? = some b' ∧ b'.buf = b.buf ++ l ∧ b'.got = b.got ++ l

theorem grow_same {s s' : Sys} (h : s'.subs = s.subs) : Grow s s' := by
  intro i b hb; exact ⟨b, [], by rw [h]; exact hb, by simp, by simp⟩

theorem grow_trans {s s1 s2 : Sys} (h1 : Grow s s1) (h2 : Grow s1 s2) : Grow s s2 := by
  intro i b hb
  obtain ⟨b1, l1, a1, a2, a3⟩ := h1 i b hb
  obtain ⟨b2, l2, c1, c2, c3⟩ := h2 i b1 a1
  exact ⟨b2, l1 ++ l2, c1, by rw [c2, a2, List.append_assoc], by rw [c3, a3, List.append_assoc]⟩

theorem grow_set {s s' : Sys} {j : Nat} {c c' : Sub} {l : List CMsg} (hc : s.subs[j]? = some c) (h : s'.subs = s.subs.set j c')
    (h1 : c'.buf = c.buf ++ l) (h2 : c'.got = c.got ++ l) : Grow s s' := by
  intro i b hb
  by_cases hij : j = i
  · subst hij
    rw [hc] at hb; cases hb
    exact ⟨c', l, by rw [h]; exact set_get hc, h1, h2⟩
  · exact ⟨b, [], by rw [h, List.getElem?_set_ne hij]; exact hb, by simp, by simp⟩

theorem grow_modify {s s' : Sys} {j : Nat} {g : Sub → Sub} (h : s'.subs = s.subs.modify j g) (h1 : ∀ b, (g b).buf = b.buf) (h2 : ∀ b, (g b).got = b.got) :
    Grow s s' := by
  intro i b hb
  by_cases hij : j = i
  · subst hij
    exact ⟨g b, [], by rw [h]; simp [hb], by simp [h1], by simp [h2]⟩
  · exact ⟨b, [], by rw [h]; simp [hb, hij], by simp, by simp⟩

theorem grow_append {s s' : Sys} {c : Sub} (h : s'.subs = s.subs ++ [c]) : Grow s s' := by
  intro i b hb
  exact ⟨b, [], by rw [h, List.getElem?_append_left (List.getElem?_eq_some_iff.1 hb).1]; exact hb, by simp, by simp⟩

theorem cnext_grow {b b' : Sub} {p p' : ClosePc} (h : CNext b p b' p') : ∃ l, b'.buf = b.buf ++ l ∧ b'.got = b.got ++ l := by
  cases h <;> first | exact ⟨_, rfl, rfl⟩ | exact ⟨[], by simp, by simp⟩

theorem cfin_grow {b b' : Sub} {p : ClosePc} (h : CFin b p b') : b'.buf = b.buf ∧ b'.got = b.got := by
  cases h <;> exact ⟨rfl, rfl⟩

theorem frameDone_grow (s : Sys) (t : Nat) (c : Call) (r : Res) : Grow s (s.frameDone t c r) := by
  obtain ⟨_, _, _, h, _⟩ := frameDone_spec s t c r
  exact grow_same h

theorem handOut_grow (s : Sys) (n : Nat) : Grow s (s.handOut n) := by
  unfold Sys.handOut
  split
  · exact grow_modify rfl (fun _ => rfl) (fun _ => rfl)
  · exact grow_same rfl

theorem unsub_grow {cfg : Cfg} {s s' : Sys} {t : Nat} {th : Thread} {i : Nat} {b : Sub} (hb : s.subs[i]? = some b) (h : UStep cfg s t th i b s') : Grow s s' := by
  cases h with
  | closeNext _ h => obtain ⟨l, h1, h2⟩ := cnext_grow h; exact grow_set hb rfl h1 h2
  | closeFin _ h => obtain ⟨h1, h2⟩ := cfin_grow h; exact grow_set (l := []) hb rfl (by simp [h1]) (by simp [h2])
  | lock => exact grow_set (l := []) hb rfl (by simp) (by simp)
  | done => exact grow_set (l := []) hb rfl (by simp) (by simp)
  | sleep => exact grow_set (l := []) hb rfl (by simp) (by simp)
  | relock => exact grow_set (l := []) hb rfl (by simp) (by simp)
  | put => exact grow_set hb rfl rfl rfl
  | _ => exact grow_same rfl

theorem helper_grow {s s' : Sys} {t : Nat} {th : Thread} {i : Nat} {b : Sub} (hb : s.subs[i]? = some b) (h : HStep s t th i b s') : Grow s s' := by
  cases h with
  | sleep => exact grow_set (l := []) hb rfl (by simp) (by simp)
  | relock => exact grow_set (l := []) hb rfl (by simp) (by simp)
  | _ => exact grow_same rfl

theorem sub_grow {s s' : Sys} {i : Nat} {b : Sub} (hb : s.subs[i]? = some b) (h : SStep s i b s') : Grow s s' := by
  cases h with
  | put => exact grow_set hb rfl rfl rfl
  | closeNext _ h => obtain ⟨l, h1, h2⟩ := cnext_grow h; exact grow_set hb rfl h1 h2
  | closeFin _ h => obtain ⟨h1, h2⟩ := cfin_grow h; exact grow_set (l := []) hb rfl (by simp [h1]) (by simp [h2])
  | eof => exact grow_set (l := []) hb rfl (by simp) (by simp)
  | checkClosed => exact grow_set (l := []) hb rfl (by simp) (by simp)
  | checkOpen => exact grow_set (l := []) hb rfl (by simp) (by simp)
  | _ => exact grow_same rfl

theorem handOver_grow {s s' : Sys} {n : Nat} {f : Frame} (h : HandOver s n f s') : Grow s s' := by
  cases h with
  | frame => exact frameDone_grow _ _ _ _
  | sub hn hb => exact grow_set (l := []) hb rfl (by simp) (by simp)
  | _ => exact grow_same rfl

theorem frameEnter_grow {s s' : Sys} {t : Nat} {c : Call} {f : Frame} (h : s.frameEnter t c f = some s') : Grow s s' := by
  unfold Sys.frameEnter at h
  repeat' split at h
  all_goals first
    | contradiction
    | simp only [Option.some.injEq] at h
  all_goals subst h
  · exact grow_trans (grow_same (s' := s.closeNet) rfl) (frameDone_grow _ _ _ _)
  · exact grow_same rfl
  · exact grow_same rfl

theorem begin_grow {s s' : Sys} {t : Nat} {c : Call} (h : s.begin t c = some s') : Grow s s' := by
  cases c with
  | frame f => exact frameEnter_grow h
  | unsubscribe i o =>
    dsimp only [Sys.begin] at h
    repeat' split at h
    all_goals first
      | contradiction
      | simp only [Option.some.injEq] at h
    all_goals subst h
    · exact grow_set (l := []) ‹_› rfl (by simp) (by simp)
    · exact grow_set (l := []) ‹_› rfl (by simp) (by simp)
    · exact grow_same rfl
  | _ =>
    dsimp only [Sys.begin] at h
    repeat' split at h
    all_goals first
      | contradiction
      | simp only [Option.some.injEq] at h
    all_goals subst h
    all_goals first
      | exact grow_same rfl
      | exact grow_append rfl

theorem push_grow {cfg : Cfg} {s s' : Sys} {t : Nat} {c : Call} {r : Req} (h : s.push cfg t c r = some s') : Grow s s' := by
  unfold Sys.push at h
  dsimp only at h
  repeat' split at h
  all_goals first
    | contradiction
    | simp only [Option.some.injEq] at h
  all_goals subst h
  all_goals first
    | exact grow_same rfl
    | exact grow_trans (grow_same (s' := Sys.unlock { s with writeCh := s.writeCh ++ [r], trace := s.trace ++ [Obs.accepted t r] }) rfl) (frameDone_grow _ _ _ _)
    | exact grow_trans (handOut_grow { s with writeCh := s.writeCh ++ [r], trace := s.trace ++ [Obs.accepted t r] } _) (grow_same rfl)

theorem thread_grow {cfg : Cfg} {s s' : Sys} {t : Nat} (h : s.thread cfg t = some s') : Grow s s' := by
  unfold Sys.thread at h
  split at h
  · cases h
  · split at h
    · exact begin_grow h
    · exact frameEnter_grow h
    · exact push_grow h
    · unfold Sys.waitClosed at h
      repeat' split at h
      all_goals first
        | contradiction
        | simp only [Option.some.injEq] at h
      all_goals subst h
      all_goals first
        | exact grow_same rfl
        | exact frameDone_grow _ _ _ _
    · cases h
    · split at h
      · split at h
        · cases h
        · exact unsub_grow ‹_› (unsub_cases h)
      · cases h

theorem timeout_grow {cfg : Cfg} {s s' : Sys} {t : Nat} (h : s.timeout cfg t = some s') : Grow s s' := by
  unfold Sys.timeout at h
  repeat' split at h
  all_goals first
    | contradiction
    | simp only [Option.some.injEq] at h
  all_goals subst h
  all_goals first
    | exact grow_same rfl
    | exact frameDone_grow _ _ _ _

theorem failWith_subs {s s' : Sys} {x : Bytes} {o : List Nat} (h : s.failWith x o = some s') : s'.subs = s.subs := by
  unfold Sys.failWith at h
  split at h
  · cases h; rfl
  · cases h

theorem loopRead_subs {s s' : Sys} {o : List Nat} (h : s.loopRead o = some s') : s'.subs = s.subs := by
  unfold Sys.loopRead at h
  dsimp only at h
  repeat' split at h
  all_goals first
    | contradiction
    | exact failWith_subs h
    | (simp only [Option.some.injEq] at h; subst h; rfl)
    | exact (failWith_subs h).trans rfl

theorem loopWrite_subs {s s' : Sys} {k : Bool} {o : List Nat} (h : s.loopWrite k o = some s') : s'.subs = s.subs := by
  unfold Sys.loopWrite at h
  split at h
  · split at h
    · exact failWith_subs h
    · cases h
  · rename_i r rest _
    have ht := (takeReq_spec s r rest).2.2.2.2.2.2.2.2.1
    split at h
    · rename_i s1 hs1
      cases h
      rw [← ht, hs1]
    · rename_i s1 f hs1
      rw [hs1] at ht
      repeat' split at h
      all_goals first
        | contradiction
        | (simp only [Option.some.injEq] at h; subst h; exact ht)
        | exact (failWith_subs h).trans ht

theorem deliver_grow {s s' : Sys} {k : Bool} (h : s.deliver k = some s') : Grow s s' := by
  unfold Sys.deliver at h
  repeat' split at h
  all_goals first
    | contradiction
    | (simp only [Option.some.injEq] at h; subst h; exact grow_same rfl)
    | skip
  all_goals
    obtain ⟨s1, h1, h2⟩ := Option.map_eq_some_iff.1 h
    subst h2
    have h3 := handOver_grow (handOver_cases h1)
    first
      | exact grow_trans h3 (grow_same rfl)
      | exact grow_trans h3 (grow_same (closeChan_spec _ _).2.2.2.2.2.2.2.2.1)

/-- A step other than the user's receive. -/
theorem grow_step {cfg : Cfg} {s s' : Sys} {e : Ev} (h : s.step cfg e = some s') (he : ∀ i, e ≠ .take i) : Grow s s' := by
  unfold Sys.step at h
  split at h
  · cases h
  cases e with
  | thread t => exact thread_grow h
  | timeout t => exact timeout_grow h
  | helper t =>
    obtain ⟨th, i, o, b, _, _, hb, h1⟩ := helper_cases h
    exact helper_grow hb h1
  | deliver b => exact deliver_grow h
  | finish =>
    dsimp only [Sys.finish] at h
    repeat' split at h
    all_goals first
      | contradiction
      | (simp only [Option.some.injEq] at h; subst h; exact grow_same rfl)
  | sub i => obtain ⟨b, hb, h1⟩ := subStep_cases h; exact sub_grow hb h1
  | take i => exact absurd rfl (he i)
  | loopRead o =>
    dsimp only at h
    split at h
    · exact grow_same (loopRead_subs h)
    · cases h
  | loopWrite k o =>
    dsimp only at h
    split at h
    · exact grow_same (loopWrite_subs h)
    · cases h
  | loopTimeout o =>
    dsimp only at h
    split at h
    · exact grow_same (failWith_subs h)
    · cases h
  | loopBeat k o =>
    dsimp only [Sys.loopBeat] at h
    repeat' split at h
    all_goals first
      | contradiction
      | exact grow_same (failWith_subs h)
      | (simp only [Option.some.injEq] at h; subst h; exact grow_same rfl)
  | _ =>
    dsimp only at h
    repeat' split at h
    all_goals first
      | contradiction
      | (simp only [Option.some.injEq] at h; subst h; exact grow_same rfl)

/-- The user's receive. -/
theorem take_step {cfg : Cfg} {s s' : Sys} {i : Nat} (h : s.step cfg (.take i) = some s') :
    ∃ b m rest, s.subs[i]? = some b ∧ b.buf = m :: rest ∧ s' = s.setSub i { b with buf := rest } := by
  unfold Sys.step at h
  split at h
  · cases h
  dsimp only at h
  repeat' split at h
  all_goals first
    | contradiction
    | (simp only [Option.some.injEq] at h; subst h; exact ⟨_, _, _, ‹_›, ‹_›, rfl⟩)

/-! ## Executions with `Read` -/

theorem sys_run_append {cfg : Cfg} {s : Sys} {a b : List Ev} : s.run cfg (a ++ b) = (s.run cfg a).bind fun s => s.run cfg b := by
  induction a generalizing s with
  | nil => rfl
  | cons e a ih =>
    show (s.step cfg e).bind _ = ((s.step cfg e).bind _).bind _
    cases s.step cfg e with
    | none => rfl
    | some s1 => exact ih

/-- What a step of `Read` is to the rest of the client. -/
inductive RdStep (cfg : Cfg) (x : RSys) (k : Nat) : RSys → Prop
  | enter {r : Reader} {b : Sub} (hr : x.readers[k]? = some r) (hb : x.sys.subs[r.sub]? = some b) (hp : r.pc = .start) (hs : b.state = .active) :
      RdStep cfg x k (x.goto k .recv)
  | late {r : Reader} {b : Sub} (hr : x.readers[k]? = some r) (hb : x.sys.subs[r.sub]? = some b) (hp : r.pc = .start) (hs : b.state ≠ .active) :
      RdStep cfg x k (x.ret k r.sub .completed)
  | got {r : Reader} {b : Sub} {m : CMsg} {rest : List CMsg} {s : Sys} (hr : x.readers[k]? = some r) (hb : x.sys.subs[r.sub]? = some b) (hp : r.pc = .recv)
      (hm : b.buf = m :: rest) (hs : x.sys.step cfg (.take r.sub) = some s) : RdStep cfg x k (({ x with sys := s } : RSys).ret k r.sub m.read)
  | drained {r : Reader} {b : Sub} (hr : x.readers[k]? = some r) (hb : x.sys.subs[r.sub]? = some b) (hp : r.pc = .recv) (hm : b.buf = [])
      (hc : b.cClosed = true) : RdStep cfg x k (x.ret k r.sub .completed)

theorem read_cases {cfg : Cfg} {x x' : RSys} {k : Nat} (h : x.read cfg k = some x') : RdStep cfg x k x' := by
  unfold RSys.read at h
  split at h
  · cases h
  rename_i r hr
  split at h
  · cases h
  rename_i b hb
  split at h
  · rename_i hp
    split at h
    · cases h; exact .enter hr hb hp ‹_›
    · cases h; exact .late hr hb hp ‹_›
  · rename_i hp
    split at h
    · rename_i m rest hm
      obtain ⟨s, h1, h2⟩ := Option.map_eq_some_iff.1 h
      subst h2
      exact .got hr hb hp hm h1
    · rename_i hm
      split at h
      · cases h; exact .drained hr hb hp hm ‹_›
      · cases h
  · cases h

theorem rstep_read {cfg : Cfg} {x x' : RSys} {k : Nat} (h : x.step cfg (.read k) = some x') : RdStep cfg x k x' := by
  simp only [RSys.step] at h
  split at h
  · cases h
  · exact read_cases h

theorem rsys_induct {cfg : Cfg} {P : RSys → Prop} {ok : REv → Prop} (hstep : ∀ x e x', P x → ok e → x.step cfg e = some x' → P x') :
    ∀ (es : List REv) (x x' : RSys), (∀ e ∈ es, ok e) → P x → x.run cfg es = some x' → P x' := by
  intro es
  induction es with
  | nil => intro x x' _ hp h; cases h; exact hp
  | cons e es ih =>
    intro x x' hok hp h
    simp only [RSys.run] at h
    cases h1 : x.step cfg e with
    | none => rw [h1] at h; cases h
    | some x1 =>
      rw [h1] at h
      exact ih x1 x' (fun e he => hok e (List.mem_cons_of_mem _ he)) (hstep x e x1 hp (hok e List.mem_cons_self) h1) h

/-- The client of an execution with `Read` has an execution. -/
theorem rsys_run {cfg : Cfg} {n : Nat} {es : List REv} {x : RSys} (h : (RSys.init n).run cfg es = some x) : ∃ ses, (Sys.init n).run cfg ses = some x.sys := by
  refine rsys_induct (P := fun x => ∃ ses, (Sys.init n).run cfg ses = some x.sys) (ok := fun _ => True) ?_ es _ x (fun _ _ => trivial) ⟨[], rfl⟩ h
  intro x e x' ⟨ses, hr⟩ _ h
  have more : ∀ e s, x.sys.step cfg e = some s → ∃ ses, (Sys.init n).run cfg ses = some s := by
    intro e s hs
    refine ⟨ses ++ [e], ?_⟩
    rw [sys_run_append, hr]
    simp only [Option.bind_some, Sys.run, hs]
  cases e with
  | sys e =>
    obtain ⟨s, h1, h2⟩ := Option.map_eq_some_iff.1 h
    subst h2
    exact more e s h1
  | call i =>
    simp only [RSys.step] at h
    repeat' split at h
    all_goals first
      | contradiction
      | (cases h; exact ⟨ses, hr⟩)
  | read k =>
    cases rstep_read h with
    | got hr' hb hp hm hs => exact more _ _ hs
    | _ => exact ⟨ses, hr⟩

/-- The calls of `Read` are on subscriptions that exist. -/
theorem readers_run {cfg : Cfg} {n : Nat} {es : List REv} {x : RSys} (h : (RSys.init n).run cfg es = some x) :
    ∀ (k : Nat) (r : Reader), x.readers[k]? = some r → ∃ b, x.sys.subs[r.sub]? = some b := by
  refine rsys_induct (P := fun x => ∀ (k : Nat) (r : Reader), x.readers[k]? = some r → ∃ b, x.sys.subs[r.sub]? = some b) (ok := fun _ => True) ?_ es _ x (fun _ _ => trivial)
    (by intro k r hr; simp [RSys.init] at hr) h
  intro x e x' hi _ h
  have more : ∀ (e : Ev) (s : Sys), x.sys.step cfg e = some s → ∀ (k : Nat) (r : Reader), x.readers[k]? = some r → ∃ b, s.subs[r.sub]? = some b := by
    intro e s hs k r hr
    obtain ⟨b, hb⟩ := hi k r hr
    obtain ⟨b', hb', _⟩ := (ext_step (step_cases hs).2).subs _ b hb
    exact ⟨b', hb'⟩
  have mod : ∀ (y : RSys) (k : Nat) (pc : RdPc), (∀ (j : Nat) (r : Reader), y.readers[j]? = some r → ∃ b, y.sys.subs[r.sub]? = some b) →
      ∀ (j : Nat) (r : Reader), (y.readers.modify k fun r => { r with pc := pc })[j]? = some r → ∃ b, y.sys.subs[r.sub]? = some b := by
    intro y k pc hy j r hr
    rw [List.getElem?_modify] at hr
    obtain ⟨r0, h1, h2⟩ := Option.map_eq_some_iff.1 hr
    obtain ⟨b, hb⟩ := hy j r0 h1
    refine ⟨b, ?_⟩
    rw [← h2]
    split <;> exact hb
  cases e with
  | sys e =>
    obtain ⟨s, h1, h2⟩ := Option.map_eq_some_iff.1 h
    subst h2
    exact more e s h1
  | call i =>
    simp only [RSys.step] at h
    split at h
    · cases h
    split at h
    · rename_i hret
      cases h
      intro k r hr
      rw [List.getElem?_append] at hr
      split at hr
      · exact hi k r hr
      · rw [List.getElem?_singleton] at hr
        split at hr
        · cases hr
          cases hb : x.sys.subs[i]? with
          | none => rw [hb] at hret; cases hret
          | some b => exact ⟨b, rfl⟩
        · cases hr
    · cases h
  | read k =>
    cases rstep_read h with
    | enter => exact mod x k _ hi
    | late => exact mod x k _ hi
    | drained => exact mod x k _ hi
    | @got r b m rest s hr hb hp hm hs => exact mod { x with sys := s } k _ (more _ _ hs)

theorem readOf_append (i : Nat) (a b : List (Nat × ReadRes)) : Spec.readOf i (a ++ b) = Spec.readOf i a ++ Spec.readOf i b := by
  induction a with
  | nil => rfl
  | cons e a ih =>
    obtain ⟨j, r⟩ := e
    show (if j = i ∧ r ≠ .completed then r :: Spec.readOf i (a ++ b) else Spec.readOf i (a ++ b)) = (if j = i ∧ r ≠ .completed then r :: Spec.readOf i a else Spec.readOf i a) ++ _
    split
    · rw [ih]; rfl
    · exact ih

theorem read_ne (m : CMsg) : m.read ≠ .completed := by cases m <;> simp [CMsg.read]

/-- What was put on `C` is what was read and what is still there. -/
def DrainInv (i : Nat) (x : RSys) : Prop :=
  (∀ b, x.sys.subs[i]? = some b → b.got.map CMsg.read = Spec.readOf i x.log ++ b.buf.map CMsg.read) ∧ (x.sys.subs[i]? = none → Spec.readOf i x.log = [])

theorem drainInv_sys {i : Nat} {x : RSys} {s : Sys} (hi : DrainInv i x) (hg : Grow x.sys s) (hn : ∀ b', x.sys.subs[i]? = none → s.subs[i]? = some b' → b'.got = [] ∧ b'.buf = []) :
    DrainInv i { x with sys := s } := by
  constructor
  · intro b' hb'
    dsimp only at hb' ⊢
    cases hb : x.sys.subs[i]? with
    | none =>
      obtain ⟨h1, h2⟩ := hn b' hb hb'
      rw [h1, h2, hi.2 hb]; rfl
    | some b =>
      obtain ⟨b1, l, h1, h2, h3⟩ := hg i b hb
      rw [hb'] at h1; cases h1
      rw [h2, h3, List.map_append, List.map_append, hi.1 b hb, List.append_assoc]
  · intro h
    dsimp only at h ⊢
    cases hb : x.sys.subs[i]? with
    | none => exact hi.2 hb
    | some b =>
      obtain ⟨b1, l, h1, _⟩ := hg i b hb
      rw [h] at h1; cases h1

/-- New subscriptions have nothing on `C`. -/
theorem fresh_sub {cfg : Cfg} {s s' : Sys} {i : Nat} {b' : Sub} (hd : Dom s) (h : Step cfg s s') (hn : s.subs[i]? = none) (hb' : s'.subs[i]? = some b') :
    b'.got = [] ∧ b'.buf = [] := by
  cases ueff_step hd h with
  | quiet ht hs =>
    rcases hs i b' hb' with ⟨b, hb, _⟩ | ⟨_, _, _, _, _, rfl⟩
    · rw [hn] at hb; cases hb
    · exact ⟨rfl, rfl⟩
  | @rl j b b' ht hb _ hs hr =>
    have : i ≠ j := by intro e; subst e; rw [hn] at hb; cases hb
    rw [hs i this, hn] at hb'; cases hb'
  | @cas t j b pc ht ht' hw hb _ hs hst hpc =>
    have : i ≠ j := by intro e; subst e; rw [hn] at hb; cases hb
    rw [hs i this, hn] at hb'; cases hb'
  | @thr t j b b' pc pc' k k' ht ht' hw hb _ hs hst =>
    have : i ≠ j := by intro e; subst e; rw [hn] at hb; cases hb
    rw [hs i this, hn] at hb'; cases hb'

theorem drainInv_log {i : Nat} {x : RSys} (hi : DrainInv i x) (k j : Nat) : DrainInv i (x.ret k j .completed) := by
  have h1 : Spec.readOf i (x.log ++ [(j, .completed)]) = Spec.readOf i x.log := by
    rw [readOf_append]
    show _ ++ (if j = i ∧ ReadRes.completed ≠ .completed then _ else _) = _
    rw [if_neg (by simp)]
    exact List.append_nil _
  exact ⟨fun b hb => by show _ = Spec.readOf i (x.log ++ [(j, .completed)]) ++ _; rw [h1]; exact hi.1 b hb,
    fun hn => by show Spec.readOf i (x.log ++ [(j, .completed)]) = _; rw [h1]; exact hi.2 hn⟩

theorem drainInv_run {cfg : Cfg} {n : Nat} {es : List REv} {x : RSys} {i : Nat} (h : (RSys.init n).run cfg es = some x) (ho : Spec.OnlyRead i es) : DrainInv i x := by
  refine (rsys_induct (P := fun x => UInv x.sys ∧ DrainInv i x) (ok := fun e => e ≠ .sys (.take i)) ?_ es _ x (fun e he hn => ho (hn ▸ he))
    ⟨uinv_init n, ⟨by intro b hb; simp [RSys.init, Sys.init] at hb, fun _ => rfl⟩⟩ h).2
  intro x e x' ⟨hu, hi⟩ hok h
  cases e with
  | sys e =>
    obtain ⟨s, h1, h2⟩ := Option.map_eq_some_iff.1 h
    subst h2
    have hs := (step_cases h1).2
    refine ⟨uinv_step hu hs, ?_⟩
    by_cases ht : ∃ j, e = .take j
    · obtain ⟨j, rfl⟩ := ht
      obtain ⟨b, m, rest, hb, hm, rfl⟩ := take_step h1
      have hj : j ≠ i := fun e => hok (by rw [e])
      have hsub : (x.sys.setSub j { b with buf := rest }).subs[i]? = x.sys.subs[i]? := List.getElem?_set_ne hj
      exact ⟨fun b' hb' => hi.1 b' (hsub ▸ hb'), fun hn => hi.2 (hsub ▸ hn)⟩
    · exact drainInv_sys hi (grow_step h1 (fun j hj => ht ⟨j, hj⟩)) (fun b' hn hb' => fresh_sub hu.dom hs hn hb')
  | call j =>
    simp only [RSys.step] at h
    repeat' split at h
    all_goals first
      | contradiction
      | (cases h; exact ⟨hu, hi⟩)
  | read k =>
    cases rstep_read h with
    | enter => exact ⟨hu, hi⟩
    | @late r b => exact ⟨hu, drainInv_log hi k r.sub⟩
    | @drained r b => exact ⟨hu, drainInv_log hi k r.sub⟩
    | @got r b m rest s hr hb hp hm hs =>
      refine ⟨uinv_step hu (step_cases hs).2, ?_⟩
      obtain ⟨b1, m1, rest1, hb1, hm1, rfl⟩ := take_step hs
      rw [hb] at hb1; cases hb1
      rw [hm] at hm1; cases hm1
      by_cases hj : r.sub = i
      · subst hj
        have h1 : Spec.readOf r.sub (x.log ++ [(r.sub, m.read)]) = Spec.readOf r.sub x.log ++ [m.read] := by
          rw [readOf_append]
          show _ ++ (if r.sub = r.sub ∧ m.read ≠ .completed then _ else _) = _
          rw [if_pos ⟨rfl, read_ne m⟩]
          rfl
        constructor
        · intro b' hb'
          have : (x.sys.setSub r.sub { b with buf := rest }).subs[r.sub]? = some { b with buf := rest } := set_get hb
          have hb'' : (x.sys.setSub r.sub { b with buf := rest }).subs[r.sub]? = some b' := hb'
          rw [this] at hb''; cases hb''
          show b.got.map CMsg.read = Spec.readOf r.sub (x.log ++ [(r.sub, m.read)]) ++ rest.map CMsg.read
          rw [h1, hi.1 b hb, hm]
          simp
        · intro hn
          have : (x.sys.setSub r.sub { b with buf := rest }).subs[r.sub]? = some { b with buf := rest } := set_get hb
          have hn' : (x.sys.setSub r.sub { b with buf := rest }).subs[r.sub]? = none := hn
          rw [this] at hn'; cases hn'
      · have h1 : Spec.readOf i (x.log ++ [(r.sub, m.read)]) = Spec.readOf i x.log := by
          rw [readOf_append]
          show _ ++ (if r.sub = i ∧ m.read ≠ .completed then _ else _) = _
          rw [if_neg (fun h => hj h.1)]
          exact List.append_nil _
        have hsub : (x.sys.setSub r.sub { b with buf := rest }).subs[i]? = x.sys.subs[i]? := List.getElem?_set_ne hj
        constructor
        · intro b' hb'
          show _ = Spec.readOf i (x.log ++ [(r.sub, m.read)]) ++ _
          rw [h1]
          exact hi.1 b' (hsub ▸ hb')
        · intro hn
          show Spec.readOf i (x.log ++ [(r.sub, m.read)]) = _
          rw [h1]
          exact hi.2 (hsub ▸ hn)

/-! ## Why a subscription is not active -/

theorem won_unsubscribed {s : Sys} {t i : Nat} {p : Pc} {h : HPc} (hw : s.won t = some (i, p, h)) : Spec.Unsubscribed s i := by
  unfold Sys.won at hw
  cases ht : s.threads[t]? with
  | none => rw [ht] at hw; cases hw
  | some th =>
    rw [ht] at hw
    simp only [Option.bind_some, Thread.won] at hw
    split at hw
    · rename_i j o hc
      split at hw
      · cases hw
      · cases hw; exact ⟨t, th, o, ht, hc⟩
    · cases hw

theorem unsubscribed_ext {s s' : Sys} {i : Nat} (he : Ext s s') (h : Spec.Unsubscribed s i) : Spec.Unsubscribed s' i := by
  obtain ⟨t, th, o, h1, h2⟩ := h
  obtain ⟨th', h3, h4⟩ := he.threads t th h1
  exact ⟨t, th', o, h3, h4.trans h2⟩

theorem cnext_state {b b' : Sub} {p p' : ClosePc} (h : CNext b p b' p') : b'.state = b.state ∨ b'.state = .closed := by
  cases h <;> simp

theorem cfin_state {b b' : Sub} {p : ClosePc} (h : CFin b p b') : b'.state = b.state := by
  cases h <;> rfl

/-- A subscription is being closed only by `Unsubscribe`, and `C` has room for 16. -/
structure WhyInv (i : Nat) (s : Sys) : Prop where
  closing : ∀ b, s.subs[i]? = some b → b.state = .closing → Spec.Unsubscribed s i
  room : ∀ b, s.subs[i]? = some b → b.buf.length ≤ 16

theorem cnext_room {b b' : Sub} {p p' : ClosePc} (h : CNext b p b' p') (hr : b.buf.length ≤ 16) : b'.buf.length ≤ 16 := by
  cases h <;> simp_all <;> omega

theorem why_inv_step {cfg : Cfg} {s s' : Sys} {i : Nat} (hd : Dom s) (hi : WhyInv i s) (h : Step cfg s s') : WhyInv i s' := by
  have he := ext_step h
  have key : ∀ b', s'.subs[i]? = some b' → (b'.state = .closing → Spec.Unsubscribed s' i) ∧ b'.buf.length ≤ 16 := by
    intro b' hb'
    have old : ∀ b, s.subs[i]? = some b → b'.state = b.state ∨ b'.state = .closed → (b'.state = .closing → Spec.Unsubscribed s' i) := by
      intro b hb h1 h2
      rcases h1 with h1 | h1
      · exact unsubscribed_ext he (hi.closing b hb (h1 ▸ h2))
      · rw [h1] at h2; cases h2
    cases ueff_step hd h with
    | quiet ht hs =>
      rcases hs i b' hb' with ⟨b, hb, h1⟩ | ⟨_, _, _, _, _, rfl⟩
      · have hr := hi.room b hb
        refine ⟨old b hb (.inl (by cases h1 <;> rfl)), ?_⟩
        cases h1 with
        | take hm => rw [hm] at hr; simp at hr ⊢; omega
        | _ => exact hr
      · exact ⟨by intro h; simp [Sub.new] at h, by simp [Sub.new]⟩
    | @rl j b b1 ht hb hb1 hs hr =>
      by_cases hj : i = j
      · subst hj
        rw [hb'] at hb1; cases hb1
        have hrm := hi.room b hb
        cases hr with
        | closeNext hr hn => have h1 := cnext_state hn; have h2 := cnext_room hn hrm; exact ⟨old b hb h1, h2⟩
        | closeFin hr hn => have h1 := cfin_state hn; exact ⟨old b hb (.inl h1), by show List.length _ ≤ 16; rw [(cfin_grow hn).1]; exact hrm⟩
        | put hr hc hl => exact ⟨old b hb (.inl rfl), by simp; omega⟩
        | _ => exact ⟨old b hb (.inl rfl), hrm⟩
      · rw [hs i hj] at hb'
        exact ⟨old b' hb' (.inl rfl), hi.room b' hb'⟩
    | @cas t j b pc ht ht' hw hb hb1 hs hst hpc =>
      by_cases hj : i = j
      · subst hj
        rw [hb'] at hb1; cases hb1
        exact ⟨fun _ => won_unsubscribed ht', hi.room b hb⟩
      · rw [hs i hj] at hb'
        exact ⟨old b' hb' (.inl rfl), hi.room b' hb'⟩
    | @thr t j b b1 pc pc' k k' ht ht' hw hb hb1 hs hst =>
      by_cases hj : i = j
      · subst hj
        rw [hb'] at hb1; cases hb1
        refine ⟨fun _ => won_unsubscribed ht', ?_⟩
        have hrm := hi.room b hb
        cases hst with
        | closeNext hn => exact cnext_room hn hrm
        | closeFin hn => rw [(cfin_grow hn).1]; exact hrm
        | put hc hl => simp; omega
        | _ => exact hrm
      · rw [hs i hj] at hb'
        exact ⟨old b' hb' (.inl rfl), hi.room b' hb'⟩
  exact ⟨fun b' hb' => (key b' hb').1, fun b' hb' => (key b' hb').2⟩

theorem why_inv_run {cfg : Cfg} {n : Nat} {es : List Ev} {s : Sys} (i : Nat) (h : (Sys.init n).run cfg es = some s) : WhyInv i s :=
  (run_induction (P := fun s => UInv s ∧ WhyInv i s) (fun _ _ _ hp h => ⟨uinv_step hp.1 (step_cases h).2, why_inv_step hp.1.dom hp.2 (step_cases h).2⟩) es _ _
    ⟨uinv_init n, ⟨by intro b hb; simp [Sys.init] at hb, by intro b hb; simp [Sys.init] at hb⟩⟩ h).2

/-- `C` has got all it will get: it is closed, or `readLoop` is just about to close it and nobody else puts anything there. -/
def Settled (i : Nat) (l : List CMsg) (s : Sys) : Prop :=
  Frozen i l s ∨ ∃ b, s.subs[i]? = some b ∧ b.got = l ∧ b.state = .closed ∧ b.rl = .closing .close ∧ ∀ t p h, s.won t ≠ some (i, p, h)

theorem settled_step {cfg : Cfg} {s s' : Sys} {i : Nat} {l : List CMsg} (hi : UInv s) (hf : Settled i l s) (h : Step cfg s s') : Settled i l s' := by
  rcases hf with hf | ⟨b, hb, hg, hst, hrl, hw⟩
  · exact .inl (frozen_step hi.dom hf h)
  cases ueff_step hi.dom h with
  | quiet ht hs =>
    obtain ⟨b', hb', _⟩ := (ext_step h).subs i b hb
    rcases hs i b' hb' with ⟨b0, hb0, he⟩ | ⟨hl, _⟩
    · rw [hb] at hb0; cases hb0
      exact .inr ⟨b', hb', by cases he <;> exact hg, by cases he <;> exact hst, by cases he <;> exact hrl, fun t p h => by rw [ht]; exact hw t p h⟩
    · have := (List.getElem?_eq_some_iff.1 hb).1
      omega
  | @rl j c c' ht hb1 hb2 hs hr =>
    by_cases hj : j = i
    · subst hj
      rw [hb] at hb1; cases hb1
      cases hr with
      | closeNext hr hn =>
        rw [hrl] at hr; cases hr
        cases hn
        exact .inl ⟨_, hb2, rfl, hg⟩
      | closeFin hr hn => rw [hrl] at hr; cases hr; cases hn
      | recv _ hr => rw [hrl] at hr; cases hr
      | eof hr => rw [hrl] at hr; cases hr
      | put hr => rw [hrl] at hr; cases hr
      | checkClosed hr => rw [hrl] at hr; cases hr
      | checkOpen hr => rw [hrl] at hr; cases hr
    · exact .inr ⟨b, (hs i (fun e => hj e.symm)).trans hb, hg, hst, hrl, fun t p h => by rw [ht]; exact hw t p h⟩
  | @cas t j c pc ht ht' hww hb1 hb2 hs hst' hpc =>
    have hj : j ≠ i := by
      intro e; subst e
      rw [hb] at hb1; cases hb1
      rw [hst] at hst'; cases hst'
    refine .inr ⟨b, (hs i (fun e => hj e.symm)).trans hb, hg, hst, hrl, fun u p h hu => ?_⟩
    by_cases e : u = t
    · subst e; rw [ht'] at hu; cases hu; exact hj rfl
    · rw [hww u e] at hu; exact hw u p h hu
  | @thr t j c c' pc pc' k k' ht ht' hww hb1 hb2 hs hst' =>
    have hj : j ≠ i := by intro e; subst e; exact hw t _ _ ht
    refine .inr ⟨b, (hs i (fun e => hj e.symm)).trans hb, hg, hst, hrl, fun u p h hu => ?_⟩
    by_cases e : u = t
    · subst e; rw [ht'] at hu; cases hu; exact hj rfl
    · rw [hww u e] at hu; exact hw u p h hu

/-- A subscription that is closed without `Unsubscribe`. -/
theorem settled_of {s : Sys} {i : Nat} {b : Sub} (hi : UInv s) (hb : s.subs[i]? = some b) (hst : b.state = .closed) (hn : ¬ Spec.Unsubscribed s i) : Settled i b.got s := by
  have hw : ∀ t p h, s.won t ≠ some (i, p, h) := fun t p h he => hn (won_unsubscribed he)
  have hk := hi.free i b hb hw
  have ho : OnceOk b b.rl.at? := by
    rcases hk.once with ⟨h1, h2⟩ | ⟨_, h2⟩
    · rw [h1]; exact h2
    · exact h2
  cases hc : b.cClosed with
  | true => exact .inl ⟨b, hb, hc, rfl⟩
  | false =>
    refine .inr ⟨b, hb, rfl, hst, ?_, hw⟩
    unfold OnceOk at ho
    split at ho
    · exact absurd hst ho.2
    · rename_i h1 h2
      unfold RlPc.at? at h2
      split at h2
      · split at h2 <;> simp_all
      · cases h2
    · rw [ho.1] at hc; cases hc
    · exact absurd hst ho.2
    · rw [ho.1] at hc; cases hc
    · exact ho.elim

/-! ## `Unsubscribe` of a subscription that is consumed by `Read` -/

/-- Waiting for the end of the subscription, in `Unsubscribe`. -/
def Pc.waits : Pc → Bool
  | .subLock _ | .check _ | .condWait | .asleep _ | .relock | .select | .timedOut | .putTimeout => true
  | _ => false

theorem waits_not_pre {p : Pc} (h : p.waits = true) : p.pre = false := by
  cases p <;> first | rfl | cases h

/-- `C` is full and its `readLoop` waits for room there, `processLoop` waits for that `readLoop`, and `Unsubscribe` for the end of it. -/
structure Clog (t i n : Nat) (s : Sys) : Prop where
  sub : ∃ b m, s.subs[i]? = some b ∧ b.state = .closing ∧ b.rl = .put m ∧ b.buf.length = 16
  thr : ∃ pc h, s.won t = some (i, pc, h) ∧ pc.waits = true
  at_ : ∃ f, AtSend s f n
  chan : s.chans[n]? = some ⟨.sub i, false⟩

theorem clog_not_gives {s s' : Sys} {t i n : Nat} (hg : Clog t i n s) : ¬ Gives s s' := by
  rintro ⟨hat, hc, h1, _⟩
  obtain ⟨f, hf⟩ := hg.at_
  obtain ⟨b, m, hb, _, hrl, _⟩ := hg.sub
  obtain ⟨_, rfl⟩ := atSend_unique hf hat
  unfold Sys.handOver at h1
  rw [hg.chan] at h1
  dsimp only at h1
  rw [hb] at h1
  dsimp only at h1
  rw [if_neg (by rw [hrl]; exact fun h => by cases h)] at h1
  cases h1

theorem clog_step {cfg : Cfg} {s s' : Sys} {t i n : Nat} (hi : UInv s) (hg : Clog t i n s) (h : Step cfg s s')
    (hgr : ∀ b b', s.subs[i]? = some b → s'.subs[i]? = some b' → b.buf.length ≤ b'.buf.length) : Clog t i n s' ∧ Rests s s' := by
  have hng := clog_not_gives (s' := s') hg
  obtain ⟨f, hf⟩ := hg.at_
  have hl := atSend_loop hf
  have hr : Rests s s' := by
    rcases rests_step h hl with h1 | h1 | h1
    · exact absurd h1 hng
    · exact absurd h1 (atSend_not_ends hf)
    · exact h1
  have hc : ChansOk s s' none := (chans_step h hl).resolve_left hng
  obtain ⟨b, m, hb, hst, hrl, hlen⟩ := hg.sub
  obtain ⟨pc, hh, hw, hp⟩ := hg.thr
  suffices hk : (∃ b m, s'.subs[i]? = some b ∧ b.state = .closing ∧ b.rl = .put m ∧ b.buf.length = 16) ∧ ∃ pc h, s'.won t = some (i, pc, h) ∧ pc.waits = true by
    refine ⟨⟨hk.1, hk.2, ⟨f, ?_⟩, chan_keep (ext_step h) hc hg.chan⟩, hr⟩
    unfold AtSend at hf ⊢
    rw [hr.1]
    exact hf
  cases ueff_step hi.dom h with
  | quiet ht hs =>
    obtain ⟨b', hb', _⟩ := (ext_step h).subs i b hb
    refine ⟨⟨b', m, hb', ?_⟩, pc, hh, by rw [ht]; exact hw, hp⟩
    rcases hs i b' hb' with ⟨b0, hb0, he⟩ | ⟨hl, _⟩
    · rw [hb] at hb0; cases hb0
      have hle := hgr b b' hb hb'
      cases he with
      | same => exact ⟨hst, hrl, hlen⟩
      | returned => exact ⟨hst, hrl, hlen⟩
      | take hm => rw [hm] at hle; simp at hle; omega
    · have := (List.getElem?_eq_some_iff.1 hb).1
      omega
  | @rl j c c' ht hb1 hb2 hs hr =>
    by_cases hj : j = i
    · subst hj
      rw [hb] at hb1; cases hb1
      exfalso
      cases hr with
      | closeNext hr hn => rw [hrl] at hr; cases hr
      | closeFin hr hn => rw [hrl] at hr; cases hr
      | recv _ hr => rw [hrl] at hr; cases hr
      | eof hr => rw [hrl] at hr; cases hr
      | put hr _ hl => omega
      | checkClosed hr => rw [hrl] at hr; cases hr
      | checkOpen hr => rw [hrl] at hr; cases hr
    · exact ⟨⟨b, m, (hs i (fun e => hj e.symm)).trans hb, hst, hrl, hlen⟩, pc, hh, by rw [ht]; exact hw, hp⟩
  | @cas u j c pc1 ht ht' hww hb1 hb2 hs hst' hpc =>
    have hj : j ≠ i := by
      intro e; subst e
      rw [hb] at hb1; cases hb1
      rw [hst] at hst'; cases hst'
    have hu : t ≠ u := by intro e; subst e; rw [ht] at hw; cases hw
    exact ⟨⟨b, m, (hs i (fun e => hj e.symm)).trans hb, hst, hrl, hlen⟩, pc, hh, by rw [hww t hu]; exact hw, hp⟩
  | @thr u j c c' pc1 pc' k k' ht ht' hww hb1 hb2 hs hst' =>
    by_cases hu : u = t
    · subst hu
      rw [hw] at ht; cases ht
      rw [hb] at hb1; cases hb1
      have hnp := waits_not_pre hp
      cases hst' with
      | move hp1 => rw [hnp] at hp1; cases hp1
      | back hp1 => rw [hnp] at hp1; cases hp1
      | lost hp1 => rw [hnp] at hp1; cases hp1
      | closeNext => cases hp
      | closeFin => cases hp
      | done hs => rw [hst] at hs; cases hs
      | timedClosed hs => rw [hst] at hs; cases hs
      | put _ hl => omega
      | _ => exact ⟨⟨_, m, hb2, hst, hrl, hlen⟩, _, _, ht', by first | rfl | exact hp⟩
    · have hj : j ≠ i := by
        intro e; subst e
        exact hu (hi.one u t j _ _ _ _ ht hw)
      exact ⟨⟨b, m, (hs i (fun e => hj e.symm)).trans hb, hst, hrl, hlen⟩, pc, hh, by rw [hww t (fun e => hu e.symm)]; exact hw, hp⟩

/-- The same, with the calls of `Read`. -/
structure RClog (t i n : Nat) (x : RSys) : Prop where
  inv : UInv x.sys
  clog : Clog t i n x.sys
  noRecv : ∀ (k : Nat) (r : Reader), x.readers[k]? = some r → r.sub = i → r.pc ≠ .recv

theorem rclog_mod {i k : Nat} {pc : RdPc} {l : List Reader} (h : ∀ (k : Nat) (r : Reader), l[k]? = some r → r.sub = i → r.pc ≠ .recv)
    (hk : ∀ r, l[k]? = some r → r.sub = i → pc ≠ .recv) :
    ∀ (j : Nat) (r : Reader), (l.modify k fun r => { r with pc := pc })[j]? = some r → r.sub = i → r.pc ≠ .recv := by
  intro j r hr hs
  rw [List.getElem?_modify] at hr
  obtain ⟨r0, h1, h2⟩ := Option.map_eq_some_iff.1 hr
  subst h2
  by_cases e : k = j
  · subst e
    rw [if_pos rfl] at hs ⊢
    exact hk r0 h1 hs
  · rw [if_neg e] at hs ⊢
    exact h j r0 h1 hs

theorem rclog_step {cfg : Cfg} {x x' : RSys} {e : REv} {t i n : Nat} (hg : RClog t i n x) (hok : e ≠ .sys (.take i)) (h : x.step cfg e = some x') :
    RClog t i n x' ∧ Rests x.sys x'.sys := by
  have sys : ∀ e s, x.sys.step cfg e = some s → e ≠ .take i → UInv s ∧ Clog t i n s ∧ Rests x.sys s := by
    intro e s hs he
    have h1 := (step_cases hs).2
    have h2 := clog_step hg.inv hg.clog h1 (by
      intro b b' hb hb'
      by_cases ht : ∃ j, e = .take j
      · obtain ⟨j, rfl⟩ := ht
        obtain ⟨c, m, rest, hc, hm, rfl⟩ := take_step hs
        have hj : j ≠ i := fun e => he (by rw [e])
        have : (x.sys.setSub j { c with buf := rest }).subs[i]? = x.sys.subs[i]? := List.getElem?_set_ne hj
        rw [this, hb] at hb'; cases hb'
        exact Nat.le_refl _
      · obtain ⟨b1, l, hb1, h2, _⟩ := grow_step hs (fun j hj => ht ⟨j, hj⟩) i b hb
        rw [hb'] at hb1; cases hb1
        rw [h2, List.length_append]
        omega)
    exact ⟨uinv_step hg.inv h1, h2.1, h2.2⟩
  cases e with
  | sys e =>
    obtain ⟨s, h1, h2⟩ := Option.map_eq_some_iff.1 h
    subst h2
    obtain ⟨a1, a2, a3⟩ := sys e s h1 (fun e => hok (by rw [e]))
    exact ⟨⟨a1, a2, hg.noRecv⟩, a3⟩
  | call j =>
    simp only [RSys.step] at h
    split at h
    · cases h
    split at h
    · cases h
      refine ⟨⟨hg.inv, hg.clog, ?_⟩, rests_same rfl rfl⟩
      intro k r hr
      rw [List.getElem?_append] at hr
      split at hr
      · exact hg.noRecv k r hr
      · rw [List.getElem?_singleton] at hr
        split at hr
        · cases hr; exact fun _ h => by cases h
        · cases hr
    · cases h
  | read k =>
    obtain ⟨b, m, hb, hst, _⟩ := hg.clog.sub
    cases rstep_read h with
    | @enter r c hr hb1 hp hs =>
      refine ⟨⟨hg.inv, hg.clog, rclog_mod hg.noRecv ?_⟩, rests_same rfl rfl⟩
      intro r1 hr1 hsub
      rw [hr] at hr1; cases hr1
      rw [hsub, hb] at hb1; cases hb1
      rw [hst] at hs; cases hs
    | late hr hb1 hp hs => exact ⟨⟨hg.inv, hg.clog, rclog_mod hg.noRecv (fun _ _ _ h => by cases h)⟩, rests_same rfl rfl⟩
    | drained hr hb1 hp hm hc => exact ⟨⟨hg.inv, hg.clog, rclog_mod hg.noRecv (fun _ _ _ h => by cases h)⟩, rests_same rfl rfl⟩
    | @got r c m1 rest s hr hb1 hp hm hs =>
      obtain ⟨a1, a2, a3⟩ := sys _ s hs (by intro e; cases e; exact hg.noRecv k r hr rfl hp)
      exact ⟨⟨a1, a2, rclog_mod hg.noRecv (fun _ _ _ h => by cases h)⟩, a3⟩

theorem rclog_run {cfg : Cfg} {x x' : RSys} {es : List REv} {t i n : Nat} (hg : RClog t i n x) (ho : Spec.OnlyRead i es) (h : x.run cfg es = some x') :
    RClog t i n x' ∧ Rests x.sys x'.sys :=
  rsys_induct (P := fun x' => RClog t i n x' ∧ Rests x.sys x'.sys) (ok := fun e => e ≠ .sys (.take i))
    (fun _ _ _ hp hok h => ⟨(rclog_step hp.1 hok h).1, rests_trans hp.2 (rclog_step hp.1 hok h).2⟩) es x x' (fun e he hn => ho (hn ▸ he)) ⟨hg, rests_same rfl rfl⟩ h

/-! ## `Read` on a closed subscription -/

theorem cnext_closed {b b' : Sub} {p p' : ClosePc} (h : CNext b p b' p') (hs : b.state = .closed) : b'.state = .closed := by
  rcases cnext_state h with h | h
  · exact h.trans hs
  · exact h

theorem closed_keep {cfg : Cfg} {s s' : Sys} {i : Nat} {b : Sub} (hd : Dom s) (h : Step cfg s s') (hb : s.subs[i]? = some b) (hst : b.state = .closed) :
    ∃ b', s'.subs[i]? = some b' ∧ b'.state = .closed := by
  cases ueff_step hd h with
  | quiet ht hs =>
    obtain ⟨b', hb', _⟩ := (ext_step h).subs i b hb
    rcases hs i b' hb' with ⟨b0, hb0, he⟩ | ⟨hl, _⟩
    · rw [hb] at hb0; cases hb0
      exact ⟨b', hb', by cases he <;> exact hst⟩
    · have := (List.getElem?_eq_some_iff.1 hb).1
      omega
  | @rl j c c' ht hb1 hb2 hs hr =>
    by_cases hj : j = i
    · subst hj
      rw [hb] at hb1; cases hb1
      refine ⟨_, hb2, ?_⟩
      cases hr with
      | closeNext hr hn => have h1 := cnext_closed hn hst; exact h1
      | closeFin hr hn => have h1 := cfin_state hn; exact h1.trans hst
      | _ => exact hst
    · exact ⟨b, (hs i (fun e => hj e.symm)).trans hb, hst⟩
  | @cas u j c pc1 ht ht' hww hb1 hb2 hs hst' hpc =>
    have hj : j ≠ i := by
      intro e; subst e
      rw [hb] at hb1; cases hb1
      rw [hst] at hst'; cases hst'
    exact ⟨b, (hs i (fun e => hj e.symm)).trans hb, hst⟩
  | @thr u j c c' pc1 pc' k k' ht ht' hww hb1 hb2 hs hst' =>
    by_cases hj : j = i
    · subst hj
      rw [hb] at hb1; cases hb1
      refine ⟨_, hb2, ?_⟩
      cases hst' with
      | closeNext hn => exact cnext_closed hn hst
      | closeFin hn => exact (cfin_state hn).trans hst
      | _ => exact hst
    · exact ⟨b, (hs i (fun e => hj e.symm)).trans hb, hst⟩

/-- The subscription is closed, and no call of `Read` is waiting at `C`. -/
structure LateRead (i : Nat) (l : List ReadRes) (x : RSys) : Prop where
  inv : UInv x.sys
  sub : ∃ b, x.sys.subs[i]? = some b ∧ b.state = .closed
  noRecv : ∀ (k : Nat) (r : Reader), x.readers[k]? = some r → r.sub = i → r.pc ≠ .recv
  log : Spec.readOf i x.log = l

theorem lateRead_step {cfg : Cfg} {x x' : RSys} {e : REv} {i : Nat} {l : List ReadRes} (hg : LateRead i l x) (h : x.step cfg e = some x') : LateRead i l x' := by
  obtain ⟨hu, ⟨b, hb, hst⟩, hrd, hlog⟩ := hg
  have keep : ∀ e s, x.sys.step cfg e = some s → UInv s ∧ ∃ b, s.subs[i]? = some b ∧ b.state = .closed := fun e s hs =>
    ⟨uinv_step hu (step_cases hs).2, closed_keep hu.dom (step_cases hs).2 hb hst⟩
  cases e with
  | sys e =>
    obtain ⟨s, a1, a2⟩ := Option.map_eq_some_iff.1 h
    subst a2
    exact ⟨(keep e s a1).1, (keep e s a1).2, hrd, hlog⟩
  | call j =>
    simp only [RSys.step] at h
    split at h
    · cases h
    split at h
    · cases h
      refine ⟨hu, ⟨b, hb, hst⟩, ?_, hlog⟩
      intro k r hr
      rw [List.getElem?_append] at hr
      split at hr
      · exact hrd k r hr
      · rw [List.getElem?_singleton] at hr
        split at hr
        · cases hr; exact fun _ h => by cases h
        · cases hr
    · cases h
  | read j =>
    have none_ : ∀ (r : ReadRes) (q : Nat), q ≠ i ∨ r = .completed → Spec.readOf i (x.log ++ [(q, r)]) = l := by
      intro r q hq
      rw [readOf_append, hlog]
      show _ ++ (if q = i ∧ r ≠ .completed then [r] else []) = _
      rw [if_neg (by rintro ⟨h1, h2⟩; exact hq.elim (fun h => h h1) h2), List.append_nil]
    cases rstep_read h with
    | @enter r c hr hb1 hp hst1 =>
      refine ⟨hu, ⟨b, hb, hst⟩, rclog_mod hrd ?_, hlog⟩
      intro r1 hr1 hsub
      rw [hr] at hr1; cases hr1
      rw [hsub, hb] at hb1; cases hb1
      rw [hst] at hst1; cases hst1
    | late hr hb1 hp hs => exact ⟨hu, ⟨b, hb, hst⟩, rclog_mod hrd (fun _ _ _ h => by cases h), none_ _ _ (.inr rfl)⟩
    | drained hr hb1 hp hm hc => exact ⟨hu, ⟨b, hb, hst⟩, rclog_mod hrd (fun _ _ _ h => by cases h), none_ _ _ (.inr rfl)⟩
    | @got r c m1 rest s hr hb1 hp hm hs1 =>
      exact ⟨(keep _ _ hs1).1, (keep _ _ hs1).2, rclog_mod hrd (fun _ _ _ h => by cases h), none_ _ _ (.inl fun e => hrd j r hr e hp)⟩

theorem lateRead_run {cfg : Cfg} {x x' : RSys} {es : List REv} {i : Nat} {l : List ReadRes} (hg : LateRead i l x) (h : x.run cfg es = some x') : LateRead i l x' :=
  rsys_induct (P := LateRead i l) (ok := fun _ => True) (fun _ _ _ hp _ h => lateRead_step hp h) es x x' (fun _ _ => trivial) hg h

end Stomp.Client
