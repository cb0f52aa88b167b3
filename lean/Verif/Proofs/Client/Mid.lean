import Verif.Proofs.Client.Facts
import Verif.Proofs.Client.SubSteps
/-! # Only a call of `Unsubscribe` is inside `Unsubscribe` -/
namespace Stomp.Client
open Stomp

/-- Inside `Unsubscribe`, past `sendFrame`. -/
def Pc.mid : Pc → Bool
  | .closing _ | .subLock _ | .check _ | .condWait | .asleep _ | .relock | .select | .timedOut | .putTimeout => true
  | _ => false

def Thread.Sound (th : Thread) : Prop := th.pc.mid = true ∨ th.helper ≠ .none → ∃ i o, th.call = .unsubscribe i o

def SoundInv (s : Sys) : Prop := ∀ (t : Nat) (th : Thread), s.threads[t]? = some th → th.Sound

theorem sound_modify {s s' : Sys} {t : Nat} {th : Thread} {g : Thread → Thread} (hi : SoundInv s) (ht : s.threads[t]? = some th)
    (h : s'.threads = s.threads.modify t g) (hg : th.Sound → (g th).Sound) : SoundInv s' := by
  intro u thu hu
  rw [h, List.getElem?_modify] at hu
  by_cases e : t = u
  · subst e
    rw [ht] at hu
    simp at hu
    subst hu
    exact hg (hi t th ht)
  · cases hx : s.threads[u]? with
    | none => rw [hx] at hu; simp at hu
    | some x =>
      rw [hx] at hu
      simp [e] at hu
      subst hu
      exact hi u x hx

theorem sound_same {s s' : Sys} (hi : SoundInv s) (h : s'.threads = s.threads) : SoundInv s' := by
  intro u thu hu; rw [h] at hu; exact hi u thu hu

theorem sound_pc {th : Thread} {pc : Pc} (h : pc.mid = false) : th.Sound → ({ th with pc := pc } : Thread).Sound := by
  intro hs hm
  rcases hm with hm | hm
  · rw [show ({ th with pc := pc } : Thread).pc = pc from rfl, h] at hm; cases hm
  · exact hs (.inr hm)

theorem sound_frameDone {s s1 : Sys} {t : Nat} {th : Thread} {r : Res} (hi : SoundInv s) (ht : s.threads[t]? = some th) (h : s1.threads = s.threads) :
    SoundInv (s1.frameDone t th.call r) := by
  obtain ⟨pc, _, _, _, hth, hpc⟩ := frameDone_spec s1 t th.call r
  refine sound_modify hi ht (by rw [hth, h]) ?_
  rcases hpc with ⟨e, _⟩ | ⟨_, hc, _⟩
  · rw [e]; exact sound_pc rfl
  · exact fun _ _ => hc

theorem sound_handOver {s s1 : Sys} {n : Nat} {f : Frame} (hi : SoundInv s) (h : HandOver s n f s1) : SoundInv s1 := by
  cases h with
  | send hn ht => exact sound_modify hi ht rfl (sound_pc rfl)
  | discOk hn ht => exact sound_modify hi ht rfl (sound_pc rfl)
  | discErr hn ht => exact sound_modify hi ht rfl (sound_pc rfl)
  | frame hn ht => exact sound_frameDone hi ht rfl
  | sub => exact sound_same hi rfl

theorem sound_step {cfg : Cfg} {s s' : Sys} (hi : SoundInv s) (h : Step cfg s s') : SoundInv s' := by
  cases h with
  | call c hl =>
    intro u thu hu
    rw [show _ = (s.threads ++ [_])[u]? from rfl, List.getElem?_append] at hu
    split at hu
    · exact hi u thu hu
    · obtain ⟨rfl⟩ := List.mem_singleton.1 (List.mem_of_getElem? hu)
      intro hm
      rcases hm with hm | hm
      · cases hm
      · exact absurd rfl hm
  | early ht hpc => exact sound_modify hi ht rfl (sound_pc rfl)
  | acquire ht => exact sound_modify hi ht rfl (sound_pc rfl)
  | acquireBare ht => exact sound_modify hi ht rfl (sound_pc rfl)
  | frameClosed ht => exact sound_frameDone hi ht rfl
  | subscribe ht => exact sound_modify hi ht rfl (sound_pc rfl)
  | unsubOption ht => exact sound_modify hi ht rfl (sound_pc rfl)
  | unsubGo ht => exact sound_modify hi ht rfl (sound_pc rfl)
  | unsubDone ht => exact sound_modify hi ht rfl (sound_pc rfl)
  | mustCrash => exact sound_same hi rfl
  | mustGo ht => exact sound_modify hi ht rfl (sound_pc rfl)
  | pushCrash => exact sound_same hi rfl
  | pushWait ht => exact sound_modify hi ht rfl (sound_pc rfl)
  | pushRet ht => exact sound_modify hi ht rfl (sound_pc rfl)
  | @pushSub t th r n _ _ _ ht =>
    obtain ⟨_, _, hth, _⟩ := handOut_spec { s with writeCh := s.writeCh ++ [r], trace := s.trace ++ [Obs.accepted t r] } n
    refine sound_modify (g := fun th => { th with pc := .ret .ok }) hi ht ?_ (sound_pc rfl)
    simp only [Sys.ret, Sys.log, Sys.goto, Sys.unlock]
    rw [hth]
  | pushFrameWait ht => exact sound_modify hi ht rfl (sound_pc rfl)
  | pushFrameRet ht => exact sound_frameDone hi ht rfl
  | nilResponse => exact sound_same hi rfl
  | waitClosed ht => exact sound_frameDone hi ht rfl
  | unsub ht hcall hb hpc h =>
    cases unsub_cases h with
    | closeCrash => exact sound_same hi rfl
    | doneCrash => exact sound_same hi rfl
    | sleepCrash => exact sound_same hi rfl
    | putCrash => exact sound_same hi rfl
    | _ => exact sound_modify hi ht rfl (fun _ _ => ⟨_, _, hcall⟩)
  | sendTimeout ht => exact sound_modify hi ht rfl (sound_pc rfl)
  | receiptTimeout ht => exact sound_modify hi ht rfl (sound_pc rfl)
  | disconnectTimeout ht => exact sound_modify hi ht rfl (sound_pc rfl)
  | frameTimeout ht => exact sound_frameDone hi ht rfl
  | selectTimeout ht _ hcall => exact sound_modify hi ht rfl (fun _ _ => ⟨_, _, hcall⟩)
  | helper ht hcall hb h =>
    obtain ⟨th, i, o, b, ht, hc, hb, hs⟩ := helper_cases h
    cases hs with
    | sleepCrash => exact sound_same hi rfl
    | _ => exact sound_modify hi ht rfl (fun _ _ => ⟨_, _, hc⟩)
  | takeQuiet => exact sound_same hi (takeReq_spec _ _ _).2.2.2.2.2.2.2.1
  | takeSent => exact sound_same hi (takeReq_spec _ _ _).2.2.2.2.2.2.2.1
  | takeFail => exact sound_same hi (takeReq_spec _ _ _).2.2.2.2.2.2.2.1
  | giveReceipt _ _ h1 => exact sound_same (sound_handOver hi (handOver_cases h1)) (closeChan_spec _ _).2.2.2.2.2.2.2.1
  | giveMessage _ _ h1 => exact sound_same (sound_handOver hi (handOver_cases h1)) rfl
  | giveErr _ _ h1 => exact sound_same (sound_handOver hi (handOver_cases h1)) (closeChan_spec _ _).2.2.2.2.2.2.2.1
  | giveFail _ _ h1 => exact sound_same (sound_handOver hi (handOver_cases h1)) rfl
  | sub h =>
    obtain ⟨b, hb, hs⟩ := subStep_cases h
    cases hs <;> exact sound_same hi rfl
  | _ => exact sound_same hi rfl

theorem sound_run {cfg : Cfg} : ∀ {es : List Ev} {s s' : Sys}, SoundInv s → s.run cfg es = some s' → SoundInv s'
  | [], s, s', hi, h => by cases h; exact hi
  | e :: es, s, s', hi, h => by
    simp only [Sys.run, Option.bind_eq_some_iff] at h
    obtain ⟨s1, h1, h2⟩ := h
    exact sound_run (sound_step hi (step_cases h1).2) h2

theorem sound_init (n : Nat) : SoundInv (Sys.init n) := by intro t th h; simp [Sys.init] at h

end Stomp.Client
