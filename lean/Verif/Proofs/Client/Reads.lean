import Verif.Proofs.Client.Receipts
/-! # What `processLoop` takes is what `readLoop` read -/
namespace Stomp.Client
open Stomp

/-- Frames (`none`: heart-beats) read from the network. -/
def readIn (tr : List Obs) : List (Option Frame) :=
  tr.filterMap fun o => match o with
    | .read x => some x
    | _ => none

/-- Frames taken by `processLoop`. -/
def tookIn (tr : List Obs) : List (Option Frame) :=
  tr.filterMap fun o => match o with
    | .took x => some x
    | _ => none

theorem readIn_append (a b : List Obs) : readIn (a ++ b) = readIn a ++ readIn b := by simp [readIn]
theorem tookIn_append (a b : List Obs) : tookIn (a ++ b) = tookIn a ++ tookIn b := by simp [tookIn]

structure ReadInv (s : Sys) : Prop where
  queue : readIn s.trace = tookIn s.trace ++ s.readCh
  pre : ∀ p, p <+: s.trace → tookIn p <+: readIn p

theorem read_ext {s s' : Sys} (hi : ReadInv s) {l : List Obs} (ht : s'.trace = s.trace ++ l)
    (hq : readIn s'.trace = tookIn s'.trace ++ s'.readCh)
    (hl : ∀ p, p <+: l → tookIn (s.trace ++ p) <+: readIn (s.trace ++ p)) : ReadInv s' := by
  refine ⟨hq, ?_⟩
  intro p hp
  rw [ht] at hp
  rcases List.prefix_concat_iff.1 (show p <+: (s.trace ++ l) ++ [Obs.beat] from hp.trans (List.prefix_append _ _)) with h | h
  · subst h
    exact absurd (hp.length_le) (by simp)
  · by_cases hlen : p.length ≤ s.trace.length
    · exact hi.pre p (List.prefix_of_prefix_length_le hp (List.prefix_append _ _) hlen)
    · have hsp : s.trace <+: p := List.prefix_of_prefix_length_le (List.prefix_append _ _) hp (by omega)
      obtain ⟨q, rfl⟩ := hsp
      exact hl q ((List.prefix_append_right_inj _).1 hp)

theorem read_quiet {s s' : Sys} (hi : ReadInv s) (l : List Obs) (ht : s'.trace = s.trace ++ l) (hc : s'.readCh = s.readCh)
    (hl : readIn l = [] ∧ tookIn l = []) : ReadInv s' := by
  refine read_ext hi ht ?_ ?_
  · rw [ht, readIn_append, tookIn_append, hl.1, hl.2, hc, List.append_nil, List.append_nil]
    exact hi.queue
  · rintro p ⟨q, rfl⟩
    rw [readIn_append, tookIn_append] at hl
    rw [readIn_append, tookIn_append, (List.append_eq_nil_iff.1 hl.1).1, (List.append_eq_nil_iff.1 hl.2).1,
      List.append_nil, List.append_nil]
    exact hi.pre _ (List.prefix_refl _)

theorem read_same {s s' : Sys} (hi : ReadInv s) (ht : s'.trace = s.trace) (hc : s'.readCh = s.readCh) : ReadInv s' :=
  read_quiet hi [] (by rw [ht, List.append_nil]) hc ⟨rfl, rfl⟩

theorem read_took {s s' : Sys} (hi : ReadInv s) {x : Option Frame} {rest : List (Option Frame)} (hr : s.readCh = x :: rest)
    (ht : s'.trace = s.trace ++ [.took x]) (hc : s'.readCh = rest) : ReadInv s' := by
  have hq := hi.queue
  have key : readIn (s.trace ++ [.took x]) = tookIn (s.trace ++ [.took x]) ++ rest := by
    rw [readIn_append, tookIn_append, hq, hr]
    simp [readIn, tookIn]
  refine read_ext hi ht (by rw [ht, hc]; exact key) ?_
  intro p hp
  rcases List.prefix_concat_iff.1 (show p <+: [] ++ [Obs.took x] from hp) with rfl | h
  · show tookIn (s.trace ++ [.took x]) <+: readIn (s.trace ++ [.took x])
    rw [key]; exact List.prefix_append _ _
  · have := List.prefix_nil.1 h
    subst this
    rw [List.append_nil]
    exact hi.pre _ (List.prefix_refl _)

theorem read_net {s s' : Sys} (hi : ReadInv s) {x : Option Frame}
    (ht : s'.trace = s.trace ++ [.read x]) (hc : s'.readCh = s.readCh ++ [x]) : ReadInv s' := by
  refine read_ext hi ht ?_ ?_
  · rw [ht, hc, readIn_append, tookIn_append, hi.queue]
    simp [readIn, tookIn]
  · intro p hp
    rcases List.prefix_concat_iff.1 (show p <+: [] ++ [Obs.read x] from hp) with rfl | h
    · show tookIn (s.trace ++ [.read x]) <+: readIn (s.trace ++ [.read x])
      rw [readIn_append, tookIn_append, hi.queue]
      simp [readIn, tookIn]
    · have := List.prefix_nil.1 h
      subst this
      rw [List.append_nil]
      exact hi.pre _ (List.prefix_refl _)

theorem read_frameDone {s : Sys} (hi : ReadInv s) (t : Nat) (c : Call) (r : Res) : ReadInv (s.frameDone t c r) := by
  obtain ⟨pc, hcore, _, _, _, ⟨_, _, htr⟩ | ⟨_, _, htr⟩⟩ := frameDone_spec s t c r
  · exact read_quiet hi _ htr hcore.readCh ⟨rfl, rfl⟩
  · exact read_same hi htr hcore.readCh

theorem read_handOver {s s1 : Sys} {n : Nat} {f : Frame} {b : Bool} (hi : ReadInv s)
    (h : s.handOver n f b = some s1) : ReadInv s1 := by
  cases handOver_cases h with
  | frame => exact read_frameDone hi _ _ _
  | send => exact read_quiet hi _ rfl rfl ⟨rfl, rfl⟩
  | discOk => exact read_quiet hi _ rfl rfl ⟨rfl, rfl⟩
  | discErr => exact read_quiet hi _ rfl rfl ⟨rfl, rfl⟩
  | sub => exact read_same hi rfl rfl

theorem read_step {cfg : Cfg} {s s' : Sys} (hi : ReadInv s) (h : Step cfg s s') : ReadInv s' := by
  cases h with
  | early => exact read_quiet hi _ rfl rfl ⟨rfl, rfl⟩
  | frameClosed => exact read_frameDone (s := s.closeNet) (read_same hi rfl rfl) _ _ _
  | unsubOption => exact read_quiet hi _ rfl rfl ⟨rfl, rfl⟩
  | unsubDone => exact read_quiet hi _ rfl rfl ⟨rfl, rfl⟩
  | mustGo => exact read_quiet hi _ rfl rfl ⟨rfl, rfl⟩
  | @pushWait t th r => exact read_quiet hi [.accepted t r] rfl rfl ⟨rfl, rfl⟩
  | @pushRet t th r => exact read_quiet hi [.accepted t r, .ret t .ok] (List.append_assoc _ [Obs.accepted t r] _) rfl ⟨rfl, rfl⟩
  | @pushSub t th r n =>
    have sp := handOut_spec { s with writeCh := s.writeCh ++ [r], trace := s.trace ++ [.accepted t r] } n
    exact read_quiet hi [.accepted t r, .ret t .ok]
      ((congrArg (· ++ [Obs.ret t .ok]) sp.2.1).trans (List.append_assoc _ [Obs.accepted t r] _)) sp.1.readCh ⟨rfl, rfl⟩
  | @pushFrameWait t th r => exact read_quiet hi [.accepted t r] rfl rfl ⟨rfl, rfl⟩
  | @pushFrameRet t th r =>
    exact read_frameDone (s := Sys.unlock { s with writeCh := s.writeCh ++ [r], trace := s.trace ++ [.accepted t r] })
      (read_quiet hi [.accepted t r] rfl rfl ⟨rfl, rfl⟩) _ _ _
  | waitClosed => exact read_frameDone hi _ _ _
  | frameTimeout => exact read_frameDone hi _ _ _
  | unsub ht hcall hb hpc h =>
    obtain ⟨hcore, ⟨h1, h2, _⟩ | ⟨_, pc, hp, h1, hpast, ⟨_, h2⟩ | ⟨r, _, h2⟩⟩⟩ := unsub_spec h
    · exact read_same hi h2 hcore.readCh
    · exact read_same hi h2 hcore.readCh
    · exact read_quiet hi _ h2 hcore.readCh ⟨rfl, rfl⟩
  | sendTimeout => exact read_quiet hi _ rfl rfl ⟨rfl, rfl⟩
  | receiptTimeout => exact read_quiet hi _ rfl rfl ⟨rfl, rfl⟩
  | disconnectTimeout => exact read_quiet hi _ rfl rfl ⟨rfl, rfl⟩
  | helper ht hcall hb h =>
    obtain ⟨hcore, h2, _⟩ := helper_spec h
    exact read_same hi h2 hcore.readCh
  | net => exact read_net hi rfl rfl
  | readSkip hl hr => exact read_took hi hr rfl rfl
  | readReceipt hl hr => exact read_took hi hr rfl rfl
  | readMissing hl hr => exact read_took hi hr rfl rfl
  | readErr hl hr => exact read_took hi hr rfl rfl
  | readMessage hl hr => exact read_took hi hr rfl rfl
  | @takeQuiet r rest =>
    have sp := takeReq_spec s r rest
    exact read_quiet hi _ sp.2.2.2.2.2.2.2.2.2.1 sp.2.2.2.2.1 ⟨rfl, rfl⟩
  | @takeSent r rest f =>
    have sp := takeReq_spec s r rest
    have h1 : ReadInv (s.takeReq r rest).1 := read_quiet hi _ sp.2.2.2.2.2.2.2.2.2.1 sp.2.2.2.2.1 ⟨rfl, rfl⟩
    exact read_quiet h1 [.sent f] rfl rfl ⟨rfl, rfl⟩
  | @takeFail r rest f =>
    have sp := takeReq_spec s r rest
    have h1 : ReadInv (s.takeReq r rest).1 := read_quiet hi _ sp.2.2.2.2.2.2.2.2.2.1 sp.2.2.2.2.1 ⟨rfl, rfl⟩
    exact read_quiet h1 [.failed f] rfl rfl ⟨rfl, rfl⟩
  | beat => exact read_quiet hi [.beat] rfl rfl ⟨rfl, rfl⟩
  | @giveReceipt f id n b s1 hl hc h1 =>
    have sp := closeChan_spec { s1 with channels := s1.channels.del id, loop := .select } n
    exact read_same (read_handOver hi h1) sp.2.2.2.2.2.2.2.2.2.1 sp.2.2.2.2.1
  | giveMessage hl hc h1 => exact read_same (read_handOver hi h1) rfl rfl
  | @giveErr f n l b s1 hl hc h1 =>
    have sp := closeChan_spec { s1 with loop := .errs f l } n
    exact read_same (read_handOver hi h1) sp.2.2.2.2.2.2.2.2.2.1 sp.2.2.2.2.1
  | giveFail hl hc h1 => exact read_same (read_handOver hi h1) rfl rfl
  | sub h =>
    obtain ⟨hcore, h2, _⟩ := subStep_spec h
    exact read_same hi h2 hcore.readCh
  | _ => exact read_same hi rfl rfl

theorem read_run {cfg : Cfg} {n : Nat} {s : Sys} {es : List Ev} (h : (Sys.init n).run cfg es = some s) : ReadInv s := by
  refine run_induction (P := ReadInv) (fun s e s' hp h => read_step hp (step_cases h).2) es _ _ ⟨rfl, ?_⟩ h
  intro p hp
  rw [List.prefix_nil.1 hp]
  exact List.prefix_refl _

/-- Whatever is taken was read before. -/
theorem took_read {s : Sys} (hi : ReadInv s) {p q : List Obs} {x : Option Frame} (h : s.trace = p ++ Obs.took x :: q) :
    Obs.read x ∈ p := by
  have h1 := hi.pre (p ++ [.took x]) ⟨q, by rw [h]; simp⟩
  rw [tookIn_append, readIn_append, show readIn [Obs.took x] = [] from rfl, List.append_nil] at h1
  have h2 : x ∈ readIn p := h1.subset (by simp [tookIn])
  obtain ⟨o, ho, h3⟩ := List.mem_filterMap.1 h2
  cases o with
  | read y =>
    simp only [Option.some.injEq] at h3
    subst h3
    exact ho
  | _ => cases h3

theorem sublist_split {α : Type} {l r tr : List α} {x : α} (h : (l ++ x :: r).Sublist tr) :
    ∃ p q, tr = p ++ x :: q ∧ l.Sublist p ∧ r.Sublist q := by
  obtain ⟨a, b, rfl, h1, h2⟩ := List.append_sublist_iff.1 h
  obtain ⟨c, d, rfl, h3, h4⟩ := List.cons_sublist_iff.1 h2
  obtain ⟨u, v, rfl⟩ := List.append_of_mem h3
  exact ⟨a ++ u, v ++ d, by simp, h1.trans (List.sublist_append_left _ _), h4.trans (List.sublist_append_right _ _)⟩

end Stomp.Client
