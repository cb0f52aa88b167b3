import Verif.Proofs.Client.Ext
import Verif.Proofs.Client.Reads
import Verif.Proofs.Client.SubSteps
import Verif.Model.Client.Errors
/-! # Where the frames come from that reach callers and subscriptions as errors -/
namespace Stomp.Client
open Stomp

/-- The frame was read by `processLoop`, or made by it. -/
def Said (tr : List Obs) (f : Frame) : Prop := .took (some f) ∈ tr ∨ ∃ x ∈ ownTexts, f = errFrame x

theorem Said.mono {tr l : List Obs} {f : Frame} (h : Said tr f) : Said (tr ++ l) f :=
  h.imp (fun h => List.mem_append_left _ h) id

/-- The frames a caller is about to return. -/
def Res.news : Res → List Frame
  | .response g => [g]
  | _ => []

def Pc.news : Pc → List Frame
  | .subLock r => r.news
  | .check r => r.news
  | .ret r => r.news
  | _ => []

def CMsg.news : CMsg → List Frame
  | .error g => [g]
  | _ => []

def ClosePc.news : ClosePc → List Frame
  | .enter (some m) => m.news
  | .put m => m.news
  | _ => []

/-- What `Unsubscribe` itself would put on `C`. -/
def Pc.odd : Pc → List Frame
  | .closing p => p.news
  | _ => []

def RlPc.news : RlPc → List Frame
  | .put m => m.news
  | .check (some m) => m.news
  | .closing p => p.news
  | _ => []

def LoopPc.frames : LoopPc → List Frame
  | .receipt f _ _ => [f]
  | .message f _ => [f]
  | .errs f _ => [f]
  | .fail f _ => [f]
  | _ => []

structure PcOk (tr : List Obs) (p : Pc) : Prop where
  news : ∀ g ∈ p.news, Said tr g ∧ g.command ≠ Cmd.receipt
  odd : p.odd = []

def Err (tr : List Obs) (g : Frame) : Prop := Said tr g ∧ g.command = Cmd.error

structure SubOk2 (tr : List Obs) (b : Sub) : Prop where
  rl : ∀ g ∈ b.rl.news, Err tr g
  buf : ∀ m ∈ b.buf, ∀ g ∈ m.news, Err tr g
  got : ∀ m ∈ b.got, ∀ g ∈ m.news, Err tr g

structure NewsInv (s : Sys) : Prop where
  loop : ∀ f ∈ s.loop.frames, Said s.trace f
  thr : ∀ th ∈ s.threads, PcOk s.trace th.pc
  sub : ∀ b ∈ s.subs, SubOk2 s.trace b

theorem PcOk.mono {tr l : List Obs} {p : Pc} (h : PcOk tr p) : PcOk (tr ++ l) p :=
  ⟨fun g hg => ⟨(h.news g hg).1.mono, (h.news g hg).2⟩, h.odd⟩

theorem Err.mono {tr l : List Obs} {g : Frame} (h : Err tr g) : Err (tr ++ l) g := ⟨h.1.mono, h.2⟩

theorem SubOk2.mono {tr l : List Obs} {b : Sub} (h : SubOk2 tr b) : SubOk2 (tr ++ l) b :=
  ⟨fun g hg => (h.rl g hg).mono, fun m hm g hg => (h.buf m hm g hg).mono, fun m hm g hg => (h.got m hm g hg).mono⟩

/-- Nothing to report. -/
theorem PcOk.quiet {tr : List Obs} {p : Pc} (h : p.news = []) (ho : p.odd = []) : PcOk tr p := ⟨by rw [h]; intro g hg; exact absurd hg List.not_mem_nil, ho⟩

theorem thr_modify {tr : List Obs} {l : List Thread} {t : Nat} {F : Thread → Thread} (h : ∀ th ∈ l, PcOk tr th.pc)
    (hp : ∀ th, l[t]? = some th → PcOk tr (F th).pc) : ∀ th ∈ l.modify t F, PcOk tr th.pc := by
  intro th hth
  obtain ⟨j, hj⟩ := List.getElem?_of_mem hth
  rw [List.getElem?_modify] at hj
  cases hx : l[j]? with
  | none => rw [hx] at hj; cases hj
  | some x =>
    rw [hx] at hj
    simp only [Option.map_eq_map, Option.map_some, Option.some.injEq] at hj
    split at hj
    · subst hj; subst t; exact hp x hx
    · subst hj; exact h x (List.mem_of_getElem? hx)

theorem sub_set {tr : List Obs} {l : List Sub} {i : Nat} {b : Sub} (h : ∀ b ∈ l, SubOk2 tr b) (hb : SubOk2 tr b) : ∀ b' ∈ l.set i b, SubOk2 tr b' := by
  intro b' hb'
  rcases List.mem_or_eq_of_mem_set hb' with h1 | rfl
  · exact h b' h1
  · exact hb

theorem cnext_news {tr : List Obs} {b b' : Sub} {p p' : ClosePc} (h : CNext b p b' p') (hb : SubOk2 tr b) (hp : ∀ g ∈ p.news, Err tr g) :
    SubOk2 tr b' ∧ p'.news ⊆ p.news ∧ b'.rl = b.rl := by
  cases h with
  | enterMsg => exact ⟨⟨hb.rl, hb.buf, hb.got⟩, List.Subset.refl _, rfl⟩
  | put =>
    refine ⟨⟨hb.rl, ?_, ?_⟩, List.nil_subset _, rfl⟩
    · intro m hm
      rcases List.mem_append.1 hm with hm | hm
      · exact hb.buf m hm
      · rw [List.mem_singleton] at hm; subst hm; exact hp
    · intro m hm
      rcases List.mem_append.1 hm with hm | hm
      · exact hb.got m hm
      · rw [List.mem_singleton] at hm; subst hm; exact hp
  | _ => exact ⟨⟨hb.rl, hb.buf, hb.got⟩, List.nil_subset _, rfl⟩

theorem cfin_news {tr : List Obs} {b b' : Sub} {p : ClosePc} (h : CFin b p b') (hb : SubOk2 tr b) : SubOk2 tr b' := by
  cases h <;> exact ⟨hb.rl, hb.buf, hb.got⟩

theorem rlRecv_news {tr : List Obs} {f : Frame} (h : Said tr f) : ∀ g ∈ (Sys.rlRecv f).news, Err tr g := by
  intro g hg
  unfold Sys.rlRecv at hg
  split at hg
  · cases hg
  split at hg
  · replace hg : g ∈ [f] := hg
    rw [List.mem_singleton] at hg; subst hg
    exact ⟨h, by assumption⟩
  split at hg <;> cases hg

theorem resOf_news {tr : List Obs} {f : Frame} (h : Said tr f) : ∀ g ∈ (resOf f).news, Said tr g ∧ g.command ≠ Cmd.receipt := by
  intro g hg
  unfold resOf at hg
  split at hg
  · cases hg
  · replace hg : g ∈ [f] := hg
    rw [List.mem_singleton] at hg; subst hg
    exact ⟨h, by assumption⟩

/-- What a caller is at after `frameDone`. -/
theorem frameDone_news {tr : List Obs} {s : Sys} {t : Nat} {c : Call} {r : Res} (h : ∀ th ∈ s.threads, PcOk tr th.pc)
    (hr : ∀ g ∈ r.news, Said tr g ∧ g.command ≠ Cmd.receipt) : ∀ th ∈ (s.frameDone t c r).threads, PcOk tr th.pc := by
  obtain ⟨pc, _, _, _, e, hpc⟩ := frameDone_spec s t c r
  rw [e]
  refine thr_modify h fun th _ => ?_
  rcases hpc with ⟨rfl, _⟩ | ⟨rfl | rfl, _⟩
  · exact ⟨hr, rfl⟩
  · exact .quiet rfl rfl
  · exact ⟨hr, rfl⟩

/-- The parts of a state that matter here. -/
theorem NewsInv.move {s s' : Sys} (hi : NewsInv s) (htr : ∃ l, s'.trace = s.trace ++ l) (hl : ∀ f ∈ s'.loop.frames, f ∈ s.loop.frames ∨ Said s'.trace f)
    (ht : (∀ th ∈ s.threads, PcOk s'.trace th.pc) → ∀ th ∈ s'.threads, PcOk s'.trace th.pc)
    (hb : (∀ b ∈ s.subs, SubOk2 s'.trace b) → ∀ b ∈ s'.subs, SubOk2 s'.trace b) : NewsInv s' := by
  obtain ⟨l, e⟩ := htr
  refine ⟨?_, ht ?_, hb ?_⟩
  · intro f hf
    rcases hl f hf with h | h
    · rw [e]; exact (hi.loop f h).mono
    · exact h
  · intro th hth; rw [e]; exact (hi.thr th hth).mono
  · intro b hb; rw [e]; exact (hi.sub b hb).mono

theorem handOver_pcs {s s1 : Sys} {n : Nat} {f : Frame} {tr : List Obs} (h : HandOver s n f s1) (hf : Said tr f)
    (ht : ∀ th ∈ s.threads, PcOk tr th.pc) : ∀ th ∈ s1.threads, PcOk tr th.pc := by
  cases h with
  | send => exact thr_modify ht fun _ _ => ⟨resOf_news hf, rfl⟩
  | discOk _ _ _ _ _ hr => exact thr_modify ht fun _ _ => .quiet (by rcases hr with rfl | rfl <;> rfl) rfl
  | discErr _ _ _ _ hc =>
    refine thr_modify ht fun _ _ => ⟨fun g hg => ?_, rfl⟩
    replace hg : g ∈ [f] := hg
    rw [List.mem_singleton] at hg; subst hg
    exact ⟨hf, hc⟩
  | frame => exact frameDone_news ht (resOf_news hf)
  | sub => exact ht

theorem handOver_boxes {s s1 : Sys} {n : Nat} {f : Frame} {tr : List Obs} (h : HandOver s n f s1) (hf : Said tr f)
    (hb : ∀ b ∈ s.subs, SubOk2 tr b) : ∀ b ∈ s1.subs, SubOk2 tr b := by
  cases h with
  | @sub i b c hn hs hrl =>
    have hk := hb b (List.mem_of_getElem? hs)
    exact sub_set hb ⟨rlRecv_news hf, hk.buf, hk.got⟩
  | frame =>
    obtain ⟨pc, _, _, e, _⟩ := frameDone_spec s _ _ _
    rw [e]; exact hb
  | _ => exact hb

theorem handOver_trace {s s1 : Sys} {n : Nat} {f : Frame} (h : HandOver s n f s1) : ∃ l, s1.trace = s.trace ++ l := by
  cases h with
  | @frame t th c _ _ _ hcall =>
    obtain ⟨pc, _, _, _, _, hpc⟩ := frameDone_spec s t th.call (resOf f)
    rcases hpc with ⟨_, _, e⟩ | ⟨_, _, e⟩
    · exact ⟨_, e⟩
    · exact ⟨[], by rw [e]; simp⟩
  | sub => exact ⟨[], by simp [Sys.setSub]⟩
  | _ => exact ⟨_, rfl⟩

theorem news_give {s s1 s' : Sys} {n : Nat} {f : Frame} {b : Bool} (hi : NewsInv s) (h1 : s.handOver n f b = some s1) (hf : f ∈ s.loop.frames)
    (htr : s'.trace = s1.trace) (ht : s'.threads = s1.threads) (hb : s'.subs = s1.subs) (hl : ∀ g ∈ s'.loop.frames, g ∈ s.loop.frames) : NewsInv s' := by
  have h2 := handOver_cases h1
  obtain ⟨l, e⟩ := handOver_trace h2
  have hs : Said s'.trace f := by rw [htr, e]; exact (hi.loop f hf).mono
  exact hi.move ⟨l, htr.trans e⟩ (fun g hg => .inl (hl g hg)) (fun h => by rw [ht]; exact handOver_pcs h2 hs h)
    (fun h => by rw [hb]; exact handOver_boxes h2 hs h)

theorem frameDone_loop (s : Sys) (t : Nat) (c : Call) (r : Res) : (s.frameDone t c r).loop = s.loop ∧ (s.frameDone t c r).subs = s.subs := by
  obtain ⟨_, h, _, h2, _⟩ := frameDone_spec s t c r
  exact ⟨h.loop, h2⟩

theorem news_same {s s' : Sys} (hi : NewsInv s) (he : ∃ l, s'.trace = s.trace ++ l) (hl : s'.loop = s.loop ∨ s'.loop.frames = []) (ht : s'.threads = s.threads)
    (hb : s'.subs = s.subs) : NewsInv s' := by
  refine hi.move he (fun f hf => .inl ?_) (fun h => by rw [ht]; exact h) (fun h => by rw [hb]; exact h)
  rcases hl with hl | hl
  · rw [hl] at hf; exact hf
  · rw [hl] at hf; cases hf

theorem news_goto {s s' : Sys} {t : Nat} {F : Thread → Thread} (hi : NewsInv s) (he : ∃ l, s'.trace = s.trace ++ l) (hl : s'.loop = s.loop)
    (ht : s'.threads = s.threads.modify t F) (hF : ∀ th, s.threads[t]? = some th → PcOk s.trace (F th).pc)
    (hb : (∀ b ∈ s.subs, SubOk2 s'.trace b) → ∀ b ∈ s'.subs, SubOk2 s'.trace b) : NewsInv s' := by
  refine hi.move he (fun f hf => .inl (by rw [hl] at hf; exact hf)) (fun h => ?_) hb
  rw [ht]
  refine thr_modify h fun th hth => ?_
  obtain ⟨l, e⟩ := he
  rw [e]
  exact (hF th hth).mono

theorem handOut_news {tr : List Obs} {s : Sys} {n : Nat} (h : ∀ b ∈ s.subs, SubOk2 tr b) : ∀ b ∈ (s.handOut n).subs, SubOk2 tr b := by
  unfold Sys.handOut
  split
  · rename_i i c hn
    intro b hb
    obtain ⟨j, hj⟩ := List.getElem?_of_mem hb
    rw [List.getElem?_modify] at hj
    cases hx : s.subs[j]? with
    | none => rw [hx] at hj; cases hj
    | some x =>
      rw [hx] at hj
      have hk := h x (List.mem_of_getElem? hx)
      simp only [Option.map_eq_map, Option.map_some, Option.some.injEq] at hj
      split at hj
      · subst hj; exact ⟨hk.rl, hk.buf, hk.got⟩
      · subst hj; exact hk
  · exact h

theorem news_unsub {cfg : Cfg} {s s' : Sys} {t i : Nat} {th : Thread} {b : Sub} (hi : NewsInv s) (he : ∃ l, s'.trace = s.trace ++ l)
    (ht : s.threads[t]? = some th) (hb : s.subs[i]? = some b) (h : UStep cfg s t th i b s') : NewsInv s' := by
  have ho := hi.thr th (List.mem_of_getElem? ht)
  have hk := hi.sub b (List.mem_of_getElem? hb)
  have hk' : SubOk2 s'.trace b := by obtain ⟨l, e⟩ := he; rw [e]; exact hk.mono
  have odd : ∀ {p : ClosePc}, th.pc = .closing p → p.news = [] := by
    intro p hp; have := ho.odd; rw [hp] at this; exact this
  have res : ∀ {r : Res}, th.pc = .subLock r ∨ th.pc = .check r → ∀ g ∈ r.news, Said s.trace g ∧ g.command ≠ Cmd.receipt := by
    intro r hr g hg
    refine ho.news g ?_
    rcases hr with hr | hr <;> rw [hr] <;> exact hg
  cases h with
  | closeNext hpc hn =>
    have h1 : ∀ tr : List Obs, ∀ g ∈ ClosePc.news _, Err tr g := fun tr g hg => by rw [odd hpc] at hg; cases hg
    obtain ⟨h2, h3, _⟩ := cnext_news hn hk' (h1 _)
    exact news_goto hi he rfl rfl (fun _ _ => ⟨fun g hg => absurd hg List.not_mem_nil, List.subset_nil.1 (by rw [odd hpc] at h3; exact h3)⟩) (fun h => sub_set h h2)
  | closeFin hpc hn => exact news_goto hi he rfl rfl (fun _ _ => .quiet rfl rfl) (fun h => sub_set h (cfin_news hn hk'))
  | lock hpc => exact news_goto hi he rfl rfl (fun _ _ => ⟨res (.inl hpc), rfl⟩) (fun h => sub_set h ⟨hk'.rl, hk'.buf, hk'.got⟩)
  | done hpc => exact news_goto hi he rfl rfl (fun _ _ => ⟨res (.inr hpc), rfl⟩) (fun h => sub_set h ⟨hk'.rl, hk'.buf, hk'.got⟩)
  | timed => exact news_goto hi he rfl rfl (fun _ _ => .quiet rfl rfl) id
  | wait => exact news_goto hi he rfl rfl (fun _ _ => .quiet rfl rfl) id
  | sleep => exact news_goto hi he rfl rfl (fun _ _ => .quiet rfl rfl) (fun h => sub_set h ⟨hk'.rl, hk'.buf, hk'.got⟩)
  | wake => exact news_goto hi he rfl rfl (fun _ _ => .quiet rfl rfl) id
  | relock => exact news_goto hi he rfl rfl (fun _ _ => .quiet rfl rfl) (fun h => sub_set h ⟨hk'.rl, hk'.buf, hk'.got⟩)
  | selected => exact news_goto hi he rfl rfl (fun _ _ => .quiet rfl rfl) id
  | timedClosed => exact news_goto hi he rfl rfl (fun _ _ => .quiet rfl rfl) id
  | timedOpen => exact news_goto hi he rfl rfl (fun _ _ => .quiet rfl rfl) id
  | put =>
    refine news_goto hi he rfl rfl (fun _ _ => .quiet rfl rfl) (fun h => sub_set h ⟨hk'.rl, ?_, ?_⟩)
    · intro m hm
      rcases List.mem_append.1 hm with hm | hm
      · exact hk'.buf m hm
      · rw [List.mem_singleton] at hm; subst hm; intro g hg; cases hg
    · intro m hm
      rcases List.mem_append.1 hm with hm | hm
      · exact hk'.got m hm
      · rw [List.mem_singleton] at hm; subst hm; intro g hg; cases hg
  | _ => exact news_same hi he (.inl rfl) rfl rfl

theorem news_helper {s s' : Sys} {t i : Nat} {th : Thread} {b : Sub} (hi : NewsInv s) (he : ∃ l, s'.trace = s.trace ++ l)
    (hb : s.subs[i]? = some b) (h : HStep s t th i b s') : NewsInv s' := by
  have hk := hi.sub b (List.mem_of_getElem? hb)
  have hk' : SubOk2 s'.trace b := by obtain ⟨l, e⟩ := he; rw [e]; exact hk.mono
  have keep : ∀ th, s.threads[t]? = some th → PcOk s.trace th.pc := fun th hth => hi.thr th (List.mem_of_getElem? hth)
  cases h with
  | sleepCrash => exact news_same hi he (.inl rfl) rfl rfl
  | sleep => exact news_goto hi he rfl rfl keep (fun h => sub_set h ⟨hk'.rl, hk'.buf, hk'.got⟩)
  | wake => exact news_goto hi he rfl rfl keep id
  | relock => exact news_goto hi he rfl rfl keep (fun h => sub_set h ⟨hk'.rl, hk'.buf, hk'.got⟩)

theorem news_sub {s s' : Sys} {i : Nat} {b : Sub} (hi : NewsInv s) (he : ∃ l, s'.trace = s.trace ++ l)
    (hb : s.subs[i]? = some b) (h : SStep s i b s') : NewsInv s' := by
  have hk := hi.sub b (List.mem_of_getElem? hb)
  have hk' : SubOk2 s'.trace b := by obtain ⟨l, e⟩ := he; rw [e]; exact hk.mono
  have hset : ∀ b' : Sub, SubOk2 s'.trace b' → s'.subs = s.subs.set i b' → s'.threads = s.threads → s'.loop = s.loop → NewsInv s' := by
    intro b' h1 h2 h3 h4
    exact hi.move he (fun f hf => .inl (by rw [h4] at hf; exact hf)) (fun h => by rw [h3]; exact h) (fun h => by rw [h2]; exact sub_set h h1)
  cases h with
  | eof => exact hset { b with rl := .check (some .readFailed) } ⟨fun g hg => absurd hg List.not_mem_nil, hk'.buf, hk'.got⟩ rfl rfl rfl
  | @put m hr =>
    have hm : ∀ g ∈ m.news, Err _ g := fun g hg => hk'.rl g (by rw [hr]; exact hg)
    refine hset _ ⟨fun g hg => absurd hg List.not_mem_nil, ?_, ?_⟩ rfl rfl rfl
    · intro m' hm'
      rcases List.mem_append.1 hm' with h | h
      · exact hk'.buf m' h
      · rw [List.mem_singleton] at h; subst h; exact hm
    · intro m' hm'
      rcases List.mem_append.1 hm' with h | h
      · exact hk'.got m' h
      · rw [List.mem_singleton] at h; subst h; exact hm
  | checkClosed => exact hset { b with rl := .done } ⟨fun g hg => absurd hg List.not_mem_nil, hk'.buf, hk'.got⟩ rfl rfl rfl
  | @checkOpen m hr =>
    refine hset { b with rl := .closing (.enter m) } ⟨fun g hg => hk'.rl g ?_, hk'.buf, hk'.got⟩ rfl rfl rfl
    rw [hr]
    cases m with
    | none => cases hg
    | some m => exact hg
  | @closeNext p p' b' hr hn =>
    obtain ⟨h2, h3, h4⟩ := cnext_news hn hk' (fun g hg => hk'.rl g (by rw [hr]; exact hg))
    exact hset { b' with rl := .closing p' } ⟨fun g hg => hk'.rl g (by rw [hr]; exact h3 hg), h2.buf, h2.got⟩ rfl rfl rfl
  | @closeFin p b' hr hn =>
    have h2 := cfin_news hn hk'
    exact hset { b' with rl := .done } ⟨fun g hg => absurd hg List.not_mem_nil, h2.buf, h2.got⟩ rfl rfl rfl
  | _ => exact news_same hi he (.inl rfl) rfl rfl

theorem news_take {s s' : Sys} {x : Option Frame} (hi : NewsInv s) (htr : s'.trace = s.trace ++ [.took x])
    (hl : ∀ g ∈ s'.loop.frames, x = some g ∨ ∃ y ∈ ownTexts, g = errFrame y) (ht : s'.threads = s.threads)
    (hb : s'.subs = s.subs) : NewsInv s' := by
  refine hi.move ⟨_, htr⟩ (fun g hg => .inr ?_) (fun h => by rw [ht]; exact h) (fun h => by rw [hb]; exact h)
  rcases hl g hg with h | h
  · subst h; left; rw [htr]; simp
  · exact .inr h

theorem news_step {cfg : Cfg} {s s' : Sys} (hi : NewsInv s) (h : Step cfg s s') : NewsInv s' := by
  have he := (ext_step h).trace
  have old : ∀ {t : Nat} {th : Thread}, s.threads[t]? = some th → PcOk s.trace th.pc := fun ht => hi.thr _ (List.mem_of_getElem? ht)
  have oldb : ∀ {i : Nat} {b : Sub}, s.subs[i]? = some b → SubOk2 s.trace b := fun hb => hi.sub _ (List.mem_of_getElem? hb)
  cases h with
  | call c =>
    refine hi.move he (fun f hf => .inl hf) (fun h th hth => ?_) id
    rcases List.mem_append.1 hth with h1 | h1
    · exact h th h1
    · rw [List.mem_singleton] at h1; subst h1; exact .quiet rfl rfl
  | early ht hpc hm hcall he' => exact hi.move he (fun f hf => .inl hf) (fun h => thr_modify h fun _ _ => .quiet (by cases he' <;> rfl) rfl) id
  | acquire => exact hi.move he (fun f hf => .inl hf) (fun h => thr_modify h fun _ _ => .quiet rfl rfl) id
  | acquireBare => exact hi.move he (fun f hf => .inl hf) (fun h => thr_modify h fun _ _ => .quiet rfl rfl) id
  | frameClosed =>
    refine hi.move he (fun f hf => .inl ?_) (fun h => frameDone_news h (by intro g hg; cases hg)) (fun h => ?_)
    · rw [(frameDone_loop s.closeNet _ _ _).1] at hf; exact hf
    · rw [(frameDone_loop s.closeNet _ _ _).2]; exact h
  | subscribe =>
    refine news_goto hi he rfl rfl (fun _ _ => .quiet rfl rfl) (fun h b hb => ?_)
    rcases List.mem_append.1 hb with h1 | h1
    · exact h b h1
    · rw [List.mem_singleton] at h1; subst h1
      exact ⟨fun g hg => absurd hg List.not_mem_nil, fun m hm => absurd hm List.not_mem_nil, fun m hm => absurd hm List.not_mem_nil⟩
  | unsubOption ht hpc hcall hb =>
    refine news_goto hi he rfl rfl (fun _ _ => .quiet rfl rfl) (fun h => sub_set h ?_)
    have hk := h _ (List.mem_of_getElem? hb)
    exact ⟨hk.rl, hk.buf, hk.got⟩
  | unsubGo ht hpc hcall hb =>
    refine news_goto hi he rfl rfl (fun _ _ => .quiet rfl rfl) (fun h => sub_set h ?_)
    have hk := h _ (List.mem_of_getElem? hb)
    exact ⟨hk.rl, hk.buf, hk.got⟩
  | unsubDone => exact news_goto hi he rfl rfl (fun _ _ => .quiet rfl rfl) id
  | mustGo => exact news_goto hi he rfl rfl (fun _ _ => .quiet rfl rfl) id
  | pushWait => exact news_goto hi he rfl rfl (fun _ _ => .quiet rfl rfl) id
  | pushRet => exact news_goto hi he rfl rfl (fun _ _ => .quiet rfl rfl) id
  | @pushSub t th r n =>
    have h1 := handOut_spec { s with writeCh := s.writeCh ++ [r], trace := s.trace ++ [Obs.accepted t r] } n
    exact news_goto hi he h1.1.loop (by show ({ s with writeCh := s.writeCh ++ [r], trace := s.trace ++ [Obs.accepted t r] }.handOut n).threads.modify _ _ = _; rw [h1.2.2.1]) (fun _ _ => .quiet rfl rfl)
      (fun h => handOut_news (s := { s with writeCh := s.writeCh ++ [r], trace := s.trace ++ [Obs.accepted t r] }) h)
  | pushFrameWait => exact news_goto hi he rfl rfl (fun _ _ => .quiet rfl rfl) id
  | pushFrameRet =>
    refine hi.move he (fun f hf => .inl ?_) (fun h => frameDone_news (by exact h) (by intro g hg; cases hg)) (fun h => ?_)
    · rw [(frameDone_loop _ _ _ _).1] at hf; exact hf
    · rw [(frameDone_loop _ _ _ _).2]; exact h
  | waitClosed =>
    refine hi.move he (fun f hf => .inl ?_) (fun h => frameDone_news h (by intro g hg; cases hg)) (fun h => ?_)
    · rw [(frameDone_loop s _ _ _).1] at hf; exact hf
    · rw [(frameDone_loop s _ _ _).2]; exact h
  | frameTimeout =>
    refine hi.move he (fun f hf => .inl ?_) (fun h => frameDone_news h (by intro g hg; cases hg)) (fun h => ?_)
    · rw [(frameDone_loop s _ _ _).1] at hf; exact hf
    · rw [(frameDone_loop s _ _ _).2]; exact h
  | unsub ht hcall hb hpc h => exact news_unsub hi he ht hb (unsub_cases h)
  | sendTimeout => exact news_goto hi he rfl rfl (fun _ _ => .quiet rfl rfl) id
  | receiptTimeout => exact news_goto hi he rfl rfl (fun _ _ => .quiet rfl rfl) id
  | disconnectTimeout => exact news_goto hi he rfl rfl (fun _ _ => .quiet rfl rfl) id
  | selectTimeout => exact news_goto hi he rfl rfl (fun _ _ => .quiet rfl rfl) id
  | helper ht hcall hb h =>
    obtain ⟨th, i, o, b, h1, h2, h3, h4⟩ := helper_cases h
    exact news_helper hi he h3 h4
  | sub h =>
    obtain ⟨b, hb, h1⟩ := subStep_cases h
    exact news_sub hi he hb h1
  | take hb hbuf =>
    refine hi.move he (fun f hf => .inl hf) id (fun h => sub_set h ?_)
    have hk := h _ (List.mem_of_getElem? hb)
    exact ⟨hk.rl, fun m hm => hk.buf m (by rw [hbuf]; exact List.mem_cons_of_mem _ hm), hk.got⟩
  | fail hl hp hx =>
    refine hi.move he (fun g hg => .inr (.inr ⟨_, hx, ?_⟩)) id id
    exact List.mem_singleton.1 hg
  | readSkip hl hr hs => exact news_same hi he (.inl rfl) rfl rfl
  | @readReceipt f => exact news_take (x := some f) hi rfl (fun g hg => .inl (by rw [List.mem_singleton.1 hg])) rfl rfl
  | @readMissing f => exact news_take (x := some f) hi rfl (fun g hg => .inr ⟨_, by decide, List.mem_singleton.1 hg⟩) rfl rfl
  | @readErr f => exact news_take (x := some f) hi rfl (fun g hg => .inl (by rw [List.mem_singleton.1 hg])) rfl rfl
  | @readMessage f => exact news_take (x := some f) hi rfl (fun g hg => .inl (by rw [List.mem_singleton.1 hg])) rfl rfl
  | @takeQuiet r rest =>
    obtain ⟨_, _, _, _, _, h1, _, h2, h3, h4, _⟩ := takeReq_spec s r rest
    exact news_same hi he (.inl h1) h2 h3
  | @takeSent r rest =>
    obtain ⟨_, _, _, _, _, h1, _, h2, h3, h4, _⟩ := takeReq_spec s r rest
    exact news_same hi he (.inl h1) h2 h3
  | @takeFail r rest f order =>
    obtain ⟨_, _, _, _, _, h1, _, h2, h3, h4, _⟩ := takeReq_spec s r rest
    refine hi.move he (fun g hg => .inr (.inr ⟨_, ?_, List.mem_singleton.1 hg⟩)) (fun h => ?_) (fun h => ?_)
    · decide
    · show ∀ th ∈ (s.takeReq r rest).1.threads, _; rw [h2]; exact h
    · show ∀ th ∈ (s.takeReq r rest).1.subs, _; rw [h3]; exact h
  | @giveReceipt f id n b s1 hl hc h1 =>
    obtain ⟨_, _, _, _, _, e1, _, e2, e3, e4, _⟩ := closeChan_spec { s1 with channels := s1.channels.del id, loop := .select } n
    exact news_give hi h1 (by rw [hl]; exact List.mem_singleton.2 rfl) e4 e2 e3 (by rw [e1]; intro g hg; cases hg)
  | giveMessage hl hc h1 => exact news_give hi h1 (by rw [hl]; exact List.mem_singleton.2 rfl) rfl rfl rfl (by intro g hg; cases hg)
  | @giveErr f n l b s1 hl hc h1 =>
    obtain ⟨_, _, _, _, _, e1, _, e2, e3, e4, _⟩ := closeChan_spec { s1 with loop := .errs f l } n
    exact news_give hi h1 (by rw [hl]; exact List.mem_singleton.2 rfl) e4 e2 e3 (by rw [e1, hl]; exact fun g hg => hg)
  | giveFail hl hc h1 => exact news_give hi h1 (by rw [hl]; exact List.mem_singleton.2 rfl) rfl rfl rfl (by rw [hl]; exact fun g hg => hg)
  | finErrs => exact news_same hi he (.inr rfl) rfl rfl
  | finClosed => exact news_same hi he (.inr rfl) rfl rfl
  | finFail => exact news_same hi he (.inr rfl) rfl rfl
  | _ => exact news_same hi he (.inl rfl) rfl rfl

theorem news_init (n : Nat) : NewsInv (Sys.init n) :=
  ⟨fun _ hf => absurd hf List.not_mem_nil, fun _ hf => absurd hf List.not_mem_nil, fun _ hf => absurd hf List.not_mem_nil⟩

theorem news_run {cfg : Cfg} {n : Nat} {s : Sys} {es : List Ev} (h : (Sys.init n).run cfg es = some s) : NewsInv s :=
  run_induction (P := NewsInv) (fun _ _ _ hp h => news_step hp (step_cases h).2) es _ _ (news_init n) h

theorem said_read {s : Sys} (hi : ReadInv s) {f : Frame} (h : Said s.trace f) : .read (some f) ∈ s.trace ∨ ∃ x ∈ ownTexts, f = errFrame x := by
  refine h.imp (fun h => ?_) id
  obtain ⟨p, q, e⟩ := List.append_of_mem h
  rw [e]
  exact List.mem_append_left _ (took_read hi e)

end Stomp.Client
