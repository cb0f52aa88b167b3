import Verif.Proofs.Server.CoreStep
/-! # What the elementary operations do to subscriptions, tags and messages -/
namespace Stomp.Server
open Stomp

/-- The unchanging part of a subscription. -/
def Sub.fixed (s : Sub) : Sub := { s with inList := false, frame := none }

theorem fixed_putFrame (heap : List Sub) (i j : Nat) (m : Option Msg) : (deref (putFrame heap i m) j).fixed = (deref heap j).fixed := by
  rw [deref_putFrame]; split <;> rfl

theorem fixed_putInList (heap : List Sub) (i j : Nat) (b : Bool) : (deref (putInList heap i b) j).fixed = (deref heap j).fixed := by
  rw [deref_putInList]; split <;> rfl

/-- How a core evolves, seen from outside. -/
structure Evol (a b : Core) : Prop where
  me : b.me = a.me
  len : a.heap.length ≤ b.heap.length
  fixed : ∀ i, i < a.heap.length → (deref b.heap i).fixed = (deref a.heap i).fixed
  tok : ∀ i, i < a.heap.length → b.tok i ≤ a.tok i
  other : ∀ i, i < a.heap.length → a.tok i = 0 → deref b.heap i = deref a.heap i
  sent : a.sent ≤ b.sent
  effective : ∃ l, b.effective = a.effective ++ l

theorem Evol.refl (a : Core) : Evol a a :=
  ⟨rfl, Nat.le_refl _, fun _ _ => rfl, fun _ _ => Nat.le_refl _, fun _ _ _ => rfl, Nat.le_refl _, [], by simp⟩

theorem Evol.trans {a b c : Core} (h : Evol a b) (h' : Evol b c) : Evol a c := by
  refine ⟨h'.me.trans h.me, Nat.le_trans h.len h'.len, ?_, ?_, ?_, Nat.le_trans h.sent h'.sent, ?_⟩
  · intro i hi; rw [h'.fixed i (Nat.lt_of_lt_of_le hi h.len), h.fixed i hi]
  · intro i hi; exact Nat.le_trans (h'.tok i (Nat.lt_of_lt_of_le hi h.len)) (h.tok i hi)
  · intro i hi hz
    rw [h'.other i (Nat.lt_of_lt_of_le hi h.len), h.other i hi hz]
    have := h.tok i hi
    omega
  · obtain ⟨l, h1⟩ := h.effective
    obtain ⟨l', h2⟩ := h'.effective
    exact ⟨l ++ l', by rw [h2, h1, List.append_assoc]⟩

theorem mem_ne_of_tok {a : Core} {i j : Nat} (hz : a.tok j = 0) (h : i ∈ a.subCh ∨ i ∈ a.subList) : i ≠ j := by
  rintro rfl
  unfold Core.tok at hz
  rcases h with h | h
  · have := count_pos_iff.2 h; omega
  · have := count_pos_iff.2 h; omega

theorem Mic.evol {a b : Core} (hm : Mic a b) : Evol a b := by
  have ne : ∃ l, a.effective = a.effective ++ l := ⟨[], by simp⟩
  cases hm with
  | dropWrite => exact ⟨rfl, Nat.le_refl _, fun _ _ => rfl, fun _ _ => Nat.le_refl _, fun _ _ _ => rfl, Nat.le_refl _, ne⟩
  | connected => exact ⟨rfl, Nat.le_refl _, fun _ _ => rfl, fun i _ => (by unfold Core.tok; dsimp only; rw [subIdx_snoc]; exact Nat.le_refl _), fun _ _ _ => rfl, Nat.le_refl _, ne⟩
  | disconnected => exact ⟨rfl, Nat.le_refl _, fun _ _ => rfl, fun i _ => (by unfold Core.tok; dsimp only; rw [subIdx_snoc]; exact Nat.le_refl _), fun _ _ _ => rfl, Nat.le_refl _, ne⟩
  | unsub => exact ⟨rfl, Nat.le_refl _, fun _ _ => rfl, fun i _ => (by unfold Core.tok; dsimp only; rw [subIdx_snoc]; exact Nat.le_refl _), fun _ _ _ => rfl, Nat.le_refl _, ne⟩
  | newSub =>
    refine ⟨rfl, by simp, fun i hi => ?_, fun i hi => ?_, fun i hi _ => ?_, Nat.le_refl _, ne⟩
    · dsimp only; rw [deref_append_lt _ _ _ hi]
    · unfold Core.tok; dsimp only; rw [subIdx_snoc]; dsimp only; rw [if_neg (by omega)]; exact Nat.le_refl _
    · dsimp only; rw [deref_append_lt _ _ _ hi]
  | send => exact ⟨rfl, Nat.le_refl _, fun _ _ => rfl, fun i _ => (by unfold Core.tok; dsimp only; rw [subIdx_snoc]; exact Nat.le_refl _), fun _ _ _ => rfl, Nat.le_succ _, _, rfl⟩
  | effect => exact ⟨rfl, Nat.le_refl _, fun _ _ => rfl, fun _ _ => Nat.le_refl _, fun _ _ _ => rfl, Nat.le_refl _, _, rfl⟩
  | ack i x y m h hm =>
    refine ⟨rfl, by rw [putFrame_length]; exact Nat.le_refl _, fun j hj => fixed_putFrame _ _ _ _, fun j hj => ?_, fun j hj hz => ?_, Nat.le_refl _, ne⟩
    · unfold Core.tok; dsimp only; rw [subIdx_snoc, h, count_mid]; dsimp only; omega
    · dsimp only; rw [deref_putFrame_ne]; exact mem_ne_of_tok hz (Or.inr (by rw [h]; simp))
  | nack i x y m h hm =>
    refine ⟨rfl, by rw [putFrame_length]; exact Nat.le_refl _, fun j hj => fixed_putFrame _ _ _ _, fun j hj => ?_, fun j hj hz => ?_, Nat.le_refl _, ne⟩
    · unfold Core.tok; dsimp only; rw [subIdx_append, h, count_mid]; simp only [List.count_append]
      have : List.count j (subIdx [.requeue (some m), .subscribe ⟨a.me, i⟩]) = if i = j then 1 else 0 := by
        simp [subIdx, count_cons']
      omega
    · dsimp only; rw [deref_putFrame_ne]; exact mem_ne_of_tok hz (Or.inr (by rw [h]; simp))
  | back i l m h hm =>
    refine ⟨rfl, Nat.le_refl _, fun j hj => rfl, fun j hj => ?_, fun j hj hz => rfl, Nat.le_refl _, ne⟩
    unfold Core.tok; dsimp only; rw [subIdx_snoc, h, count_cons']; dsimp only; omega
  | lose i l m n h hm =>
    refine ⟨rfl, by rw [putFrame_length]; exact Nat.le_refl _, fun j hj => fixed_putFrame _ _ _ _, fun j hj => ?_, fun j hj hz => ?_, Nat.le_refl _, ne⟩
    · unfold Core.tok; dsimp only; rw [h, count_cons']; omega
    · dsimp only; rw [deref_putFrame_ne]; exact mem_ne_of_tok hz (Or.inl (by rw [h]; simp))
  | auto i l m h hm =>
    refine ⟨rfl, by rw [putFrame_length]; exact Nat.le_refl _, fun j hj => fixed_putFrame _ _ _ _, fun j hj => ?_, fun j hj hz => ?_, Nat.le_refl _, ne⟩
    · unfold Core.tok; dsimp only; rw [subIdx_snoc, h, count_cons']; dsimp only; omega
    · dsimp only; rw [deref_putFrame_ne]; exact mem_ne_of_tok hz (Or.inl (by rw [h]; simp))
  | hold i l m n h hm =>
    refine ⟨rfl, by rw [putInList_length, putFrame_length]; exact Nat.le_refl _, fun j hj => (fixed_putInList _ _ _ _).trans (fixed_putFrame _ _ _ _), fun j hj => ?_, fun j hj hz => ?_, Nat.le_refl _, ne⟩
    · unfold Core.tok; dsimp only; rw [h, count_cons', count_snoc]; omega
    · have := mem_ne_of_tok hz (Or.inl (show i ∈ a.subCh by rw [h]; simp))
      dsimp only; rw [deref_putInList_ne _ _ this, deref_putFrame_ne _ _ this]
  | release i l m h hm =>
    refine ⟨rfl, by rw [putInList_length]; exact Nat.le_refl _, fun j hj => fixed_putInList _ _ _ _, fun j hj => ?_, fun j hj hz => ?_, Nat.le_refl _, ne⟩
    · unfold Core.tok; dsimp only; rw [subIdx_snoc, h, count_cons']; dsimp only; omega
    · dsimp only; rw [deref_putInList_ne]; exact mem_ne_of_tok hz (Or.inr (by rw [h]; simp))

theorem Mics.evol {a b : Core} (hm : Mics a b) : Evol a b := by
  induction hm with
  | refl => exact Evol.refl _
  | step _ hm ih => exact ih.trans hm.evol

/-! ## Tags -/

/-- The tags of messages in requests. -/
def reqTags (l : List Req) : List Tag :=
  l.filterMap (fun | .enqueue m => some m.tag | .requeue (some m) => some m.tag | _ => none)

theorem reqTags_append (a b : List Req) : reqTags (a ++ b) = reqTags a ++ reqTags b := by
  unfold reqTags; rw [List.filterMap_append]

/-- The tags of the messages in the hands of a connection. -/
def Core.tags (a : Core) : List Tag :=
  reqTags a.pend ++ Conn.frameTags a.heap a.subCh ++ Conn.frameTags a.heap a.subList ++ a.acked ++ a.autoDone ++ a.lost

theorem frameTags_append (heap : List Sub) (a b : List Nat) :
    Conn.frameTags heap (a ++ b) = Conn.frameTags heap a ++ Conn.frameTags heap b := by
  unfold Conn.frameTags; rw [List.filterMap_append]

theorem frameTags_cons {heap : List Sub} {i : Nat} {l : List Nat} {m : Msg} (h : (deref heap i).frame = some m) :
    Conn.frameTags heap (i :: l) = m.tag :: Conn.frameTags heap l := by
  unfold Conn.frameTags; rw [List.filterMap_cons_some (b := m.tag) (by rw [h]; rfl)]

theorem frameTags_congr {heap heap' : List Sub} {l : List Nat} (h : ∀ i ∈ l, (deref heap' i).frame.map (·.tag) = (deref heap i).frame.map (·.tag)) :
    Conn.frameTags heap' l = Conn.frameTags heap l := by
  unfold Conn.frameTags
  induction l with
  | nil => rfl
  | cons i l ih =>
    rw [List.filterMap_cons, List.filterMap_cons, h i (by simp), ih (fun j hj => h j (by simp [hj]))]

theorem frameTags_putFrame_ne {heap : List Sub} {i : Nat} {l : List Nat} (m : Option Msg) (h : i ∉ l) :
    Conn.frameTags (putFrame heap i m) l = Conn.frameTags heap l :=
  frameTags_congr (fun j hj => by rw [deref_putFrame_ne]; rintro rfl; exact h hj)

theorem frameTags_putInList (heap : List Sub) (i : Nat) (l : List Nat) (b : Bool) :
    Conn.frameTags (putInList heap i b) l = Conn.frameTags heap l :=
  frameTags_congr (fun j _ => by rw [frame_putInList])

theorem frameTags_alloc {heap : List Sub} {i : Nat} (l : List Nat) {m : Msg} (n : Nat) (a : Option Bytes) (h : (deref heap i).frame = some m) :
    Conn.frameTags (putFrame heap i (some (m.alloc n a))) l = Conn.frameTags heap l := by
  refine frameTags_congr (fun j _ => ?_)
  rw [deref_putFrame]
  split
  · rename_i hj
    rw [← hj.1, h]; rfl
  · rfl

/-- The tags given out between two states. -/
def fresh (me lo hi : Nat) (t : Tag) : Nat := if t.src = me ∧ lo ≤ t.seq ∧ t.seq < hi then 1 else 0

theorem Mic.tags {a b : Core} (hl : Loc a) (hm : Mic a b) (t : Tag) :
    b.tags.count t = a.tags.count t + fresh a.me a.sent b.sent t := by
  have hf0 : ∀ n, fresh a.me n n t = 0 := by
    intro n; unfold fresh; rw [if_neg]; omega
  have one : ∀ (x : Tag) (l : List Tag), (x :: l).count t = l.count t + (if x = t then 1 else 0) := by
    intro x l; rw [List.count_cons]; by_cases h : x = t <;> simp [h]
  have distinct : ∀ {i}, (0 < a.subCh.count i → a.subCh.count i = 1 ∧ i ∉ a.subList) ∧ (0 < a.subList.count i → a.subList.count i = 1 ∧ i ∉ a.subCh) := by
    intro i
    have h1 := hl.tok i
    unfold Core.tok at h1
    refine ⟨fun h => ⟨by omega, fun hm => ?_⟩, fun h => ⟨by omega, fun hm => ?_⟩⟩
    · have := count_pos_iff.2 hm; omega
    · have := count_pos_iff.2 hm; omega
  have headCh : ∀ {i l}, a.subCh = i :: l → i ∉ l ∧ i ∉ a.subList := by
    intro i l h
    have h1 : 0 < a.subCh.count i := by rw [h, count_cons', if_pos rfl]; omega
    have h2 := distinct.1 h1
    refine ⟨fun hm => ?_, h2.2⟩
    have := count_pos_iff.2 hm
    rw [h, count_cons', if_pos rfl] at h2; omega
  have midList : ∀ {i x y}, a.subList = x ++ i :: y → i ∉ x ++ y ∧ i ∉ a.subCh := by
    intro i x y h
    have h1 : 0 < a.subList.count i := by rw [h, count_mid, if_pos rfl]; omega
    have h2 := distinct.2 h1
    refine ⟨fun hm => ?_, h2.2⟩
    have := count_pos_iff.2 hm
    rw [h, count_mid, if_pos rfl] at h2; omega
  unfold Core.tags
  cases hm with
  | dropWrite => dsimp only; rw [hf0]; rfl
  | connected => dsimp only; rw [hf0, reqTags_append]; simp [reqTags]
  | disconnected => dsimp only; rw [hf0, reqTags_append]; simp [reqTags]
  | unsub => dsimp only; rw [hf0, reqTags_append]; simp [reqTags]
  | newSub dest id ack =>
    dsimp only
    rw [hf0, reqTags_append]
    have h1 : ∀ l : List Nat, (∀ i ∈ l, i < a.heap.length) → Conn.frameTags (a.heap ++ [newSubscription dest id ack]) l = Conn.frameTags a.heap l :=
      fun l hl => frameTags_congr (fun i hi => by rw [deref_append_lt _ _ _ (hl i hi)])
    rw [h1 a.subCh (fun i hi => hl.idx i (by unfold Core.tok; have := count_pos_iff.2 hi; omega)),
      h1 a.subList (fun i hi => hl.idx i (by unfold Core.tok; have := count_pos_iff.2 hi; omega))]
    simp [reqTags]
  | send f hf =>
    dsimp only
    rw [reqTags_append]
    simp only [List.count_append]
    have : List.count t (reqTags [.enqueue ⟨⟨a.me, a.sent⟩, { f with command := Cmd.message }⟩]) = fresh a.me a.sent (a.sent + 1) t := by
      show List.count t [⟨a.me, a.sent⟩] = _
      rw [one]
      unfold fresh
      obtain ⟨src, seq⟩ := t
      simp only [List.count_nil, Nat.zero_add, Tag.mk.injEq]
      by_cases h : a.me = src ∧ a.sent = seq
      · rw [if_pos h, if_pos]; omega
      · rw [if_neg h, if_neg]; omega
    omega
  | effect => dsimp only; rw [hf0]; rfl
  | ack i x y m h hm =>
    obtain ⟨h1, h2⟩ := midList h
    dsimp only
    rw [hf0, reqTags_append, frameTags_putFrame_ne _ h2, frameTags_putFrame_ne _ h1, h]
    simp only [List.count_append, frameTags_append, frameTags_cons hm, one]
    simp [reqTags]; omega
  | nack i x y m h hm =>
    obtain ⟨h1, h2⟩ := midList h
    dsimp only
    rw [hf0, reqTags_append, frameTags_putFrame_ne _ h2, frameTags_putFrame_ne _ h1, h]
    simp only [List.count_append, frameTags_append, frameTags_cons hm, one]
    have : List.count t (reqTags [.requeue (some m), .subscribe ⟨a.me, i⟩]) = if m.tag = t then 1 else 0 := by
      show List.count t [m.tag] = _; rw [one]; simp
    omega
  | back i l m h hm =>
    dsimp only
    rw [hf0, reqTags_append, h]
    simp only [List.count_append, frameTags_cons hm, one]
    have : List.count t (reqTags [.requeue (some m)]) = if m.tag = t then 1 else 0 := by
      show List.count t [m.tag] = _; rw [one]; simp
    omega
  | lose i l m n h hm =>
    dsimp only
    rw [hf0, frameTags_alloc l n _ hm, frameTags_alloc a.subList n _ hm, h]
    simp only [List.count_append, frameTags_cons hm, one, List.count_nil]
    omega
  | auto i l m h hm =>
    obtain ⟨h1, h2⟩ := headCh h
    dsimp only
    rw [hf0, reqTags_append, frameTags_putFrame_ne _ h1, frameTags_putFrame_ne _ h2, h]
    simp only [List.count_append, frameTags_cons hm, one]
    simp [reqTags]; omega
  | hold i l m n h hm =>
    dsimp only
    rw [hf0, frameTags_putInList, frameTags_putInList, frameTags_alloc l n _ hm, frameTags_alloc (a.subList ++ [i]) n _ hm, h]
    simp only [List.count_append, frameTags_append, frameTags_cons hm, one]
    simp only [Conn.frameTags, List.filterMap_nil, List.count_nil]
    omega
  | release i l m h hm =>
    dsimp only
    rw [hf0, reqTags_append, frameTags_putInList, frameTags_putInList, h]
    simp only [List.count_append, frameTags_cons hm, one]
    have : List.count t (reqTags [.requeue (some m)]) = if m.tag = t then 1 else 0 := by
      show List.count t [m.tag] = _; rw [one]; simp
    omega

theorem fresh_add {me lo mid hi : Nat} (h1 : lo ≤ mid) (h2 : mid ≤ hi) (t : Tag) :
    fresh me lo mid t + fresh me mid hi t = fresh me lo hi t := by
  unfold fresh
  by_cases hs : t.src = me
  · by_cases ha : lo ≤ t.seq
    · by_cases hb : t.seq < mid
      · rw [if_pos ⟨hs, ha, hb⟩, if_neg (by omega), if_pos (by omega)]
      · rw [if_neg (by omega)]
        by_cases hc : t.seq < hi
        · rw [if_pos (by omega), if_pos (by omega)]
        · rw [if_neg (by omega), if_neg (by omega)]
    · rw [if_neg (by omega), if_neg (by omega), if_neg (by omega)]
  · rw [if_neg (fun h => hs h.1), if_neg (fun h => hs h.1), if_neg (fun h => hs h.1)]

theorem Mics.tags {a b : Core} (hl : Loc a) (hm : Mics a b) (t : Tag) :
    b.tags.count t = a.tags.count t + fresh a.me a.sent b.sent t := by
  induction hm with
  | refl => unfold fresh; rw [if_neg (by omega)]; rfl
  | step h hm ih =>
    rename_i b c
    rw [hm.tags (hl.mics h) t, ih, h.evol.me, Nat.add_assoc, fresh_add h.evol.sent hm.evol.sent]

/-! ## Messages -/

/-- All messages of a core have a property. -/
structure Core.All (P : Msg → Prop) (a : Core) : Prop where
  heap : ∀ i m, (deref a.heap i).frame = some m → P m
  enq : ∀ m, .enqueue m ∈ a.pend → P m
  req : ∀ m, .requeue (some m) ∈ a.pend → P m
  wr : ∀ m ∈ a.writeCh, P m

theorem Mic.all {P : Msg → Prop} {a b : Core} (h : a.All P) (ha : ∀ m n x, P m → P (m.alloc n x)) (hm : Mic a b)
    (hf : ∀ f, f.command = Cmd.send → b.effective = a.effective ++ [f] → P ⟨⟨a.me, a.sent⟩, { f with command := Cmd.message }⟩) :
    b.All P := by
  have pf : ∀ i (o : Option Msg), (∀ m, o = some m → P m) → ∀ j m, (deref (putFrame a.heap i o) j).frame = some m → P m := by
    intro i o ho j m hj
    rw [deref_putFrame] at hj
    split at hj
    · exact ho m hj
    · exact h.heap j m hj
  have pn := fun i => pf i none (by simp)
  cases hm with
  | dropWrite m w hw => exact ⟨h.heap, h.enq, h.req, fun m hm => h.wr m (by rw [hw]; simp [hm])⟩
  | connected => exact ⟨h.heap, fun m hm => h.enq m (by simpa using hm), fun m hm => h.req m (by simpa using hm), h.wr⟩
  | disconnected => exact ⟨h.heap, fun m hm => h.enq m (by simpa using hm), fun m hm => h.req m (by simpa using hm), h.wr⟩
  | unsub => exact ⟨h.heap, fun m hm => h.enq m (by simpa using hm), fun m hm => h.req m (by simpa using hm), h.wr⟩
  | newSub dest id ack =>
    refine ⟨fun i m hi => ?_, fun m hm => h.enq m (by simpa using hm), fun m hm => h.req m (by simpa using hm), h.wr⟩
    dsimp only at hi
    have hlt := lt_of_frame hi
    by_cases hlt' : i < a.heap.length
    · rw [deref_append_lt _ _ _ hlt'] at hi; exact h.heap i m hi
    · have : i = a.heap.length := by rw [List.length_append] at hlt; simp at hlt; omega
      subst this
      rw [deref_append_eq] at hi; cases hi
  | send f hc =>
    refine ⟨h.heap, fun m hm => ?_, fun m hm => h.req m (by simpa using hm), h.wr⟩
    dsimp only at hm
    rw [mem_append_one] at hm
    rcases hm with hm | hm
    · exact h.enq m hm
    · injection hm with hm; subst hm; exact hf f hc rfl
  | effect => exact ⟨h.heap, h.enq, h.req, h.wr⟩
  | ack i x y m => exact ⟨pn i, fun m hm => h.enq m (by simpa using hm), fun m hm => h.req m (by simpa using hm), h.wr⟩
  | nack i x y m _ hfr =>
    refine ⟨pn i, fun m hm => h.enq m (by simpa using hm), fun m' hm => ?_, h.wr⟩
    simp only [List.mem_append, List.mem_cons, Req.requeue.injEq, Option.some.injEq, List.not_mem_nil, or_false] at hm
    rcases hm with hm | hm | hm
    · exact h.req m' hm
    · subst hm; exact h.heap i _ hfr
    · cases hm
  | back i l m _ hfr =>
    refine ⟨h.heap, fun m hm => h.enq m (by simpa using hm), fun m' hm => ?_, h.wr⟩
    simp only [List.mem_append, List.mem_cons, Req.requeue.injEq, Option.some.injEq, List.not_mem_nil, or_false] at hm
    rcases hm with hm | hm
    · exact h.req m' hm
    · subst hm; exact h.heap i _ hfr
  | lose i l m n _ hfr => exact ⟨pf i _ (by rintro x ⟨rfl⟩; exact ha _ _ _ (h.heap i m hfr)), h.enq, h.req, h.wr⟩
  | auto i l m => exact ⟨pn i, fun m hm => h.enq m (by simpa using hm), fun m hm => h.req m (by simpa using hm), h.wr⟩
  | hold i l m n _ hfr =>
    refine ⟨fun j x hx => ?_, h.enq, h.req, h.wr⟩
    dsimp only at hx
    rw [frame_putInList] at hx
    exact pf i _ (by rintro x ⟨rfl⟩; exact ha _ _ _ (h.heap i m hfr)) j x hx
  | release i l m _ hfr =>
    refine ⟨fun j x hx => ?_, fun m hm => h.enq m (by simpa using hm), fun m' hm => ?_, h.wr⟩
    · dsimp only at hx
      rw [frame_putInList] at hx
      exact h.heap j x hx
    · simp only [List.mem_append, List.mem_cons, Req.requeue.injEq, Option.some.injEq, List.not_mem_nil, or_false] at hm
      rcases hm with hm | hm
      · exact h.req m' hm
      · subst hm; exact h.heap i _ hfr

theorem Mics.all {P : Msg → Prop} {a b : Core} (h : a.All P) (ha : ∀ m n x, P m → P (m.alloc n x)) (hm : Mics a b)
    (hf : ∀ a' f, Mics a a' → f.command = Cmd.send → (∃ l, b.effective = a'.effective ++ [f] ++ l) →
      P ⟨⟨a'.me, a'.sent⟩, { f with command := Cmd.message }⟩) : b.All P := by
  induction hm with
  | refl => exact h
  | step h' hm ih =>
    rename_i b c
    obtain ⟨l0, hl0⟩ := hm.evol.effective
    refine Mic.all (ih (fun a' f h1 h2 ⟨l, h3⟩ => hf a' f h1 h2 ⟨l ++ l0, by rw [hl0, h3, List.append_assoc]⟩)) ha hm (fun f h1 h2 => hf b f h' h1 ⟨[], by rw [h2]; simp⟩)

/-! ## Messages allocated to subscriptions -/

/-- All messages allocated to subscriptions have a property, and so do those to be put back. -/
structure Core.Held (P : Sub → Msg → Prop) (R : Msg → Prop) (a : Core) : Prop where
  heap : ∀ i m, (deref a.heap i).frame = some m → P (deref a.heap i).fixed m
  req : ∀ m, .requeue (some m) ∈ a.pend → R m

theorem Mic.held {P : Sub → Msg → Prop} {R : Msg → Prop} {a b : Core} (h : a.Held P R) (ha : ∀ x m n, P x m → P x (m.alloc n (some x.ack)))
    (hr : ∀ x m, P x m → R m) (hm : Mic a b) : b.Held P R := by
  have pf : ∀ i (o : Option Msg), (∀ m, o = some m → P (deref a.heap i).fixed m) →
      ∀ j m, (deref (putFrame a.heap i o) j).frame = some m → P (deref (putFrame a.heap i o) j).fixed m := by
    intro i o ho j m hj
    rw [fixed_putFrame]
    rw [deref_putFrame] at hj
    split at hj
    · rename_i hij; rw [← hij.1]; exact ho m hj
    · exact h.heap j m hj
  have pn := fun i => pf i none (by simp)
  have al : ∀ {i m} n, (deref a.heap i).frame = some m → ∀ x, some (m.alloc n (some (deref a.heap i).ack)) = some x → P (deref a.heap i).fixed x := by
    intro i m n hf x hx
    injection hx with hx; subst hx
    exact ha (deref a.heap i).fixed m n (h.heap i m hf)
  cases hm with
  | dropWrite m w hw => exact ⟨h.heap, h.req⟩
  | connected => exact ⟨h.heap, fun m hm => h.req m (by simpa using hm)⟩
  | disconnected => exact ⟨h.heap, fun m hm => h.req m (by simpa using hm)⟩
  | unsub => exact ⟨h.heap, fun m hm => h.req m (by simpa using hm)⟩
  | newSub dest id ack =>
    refine ⟨fun i m hi => ?_, fun m hm => h.req m (by simpa using hm)⟩
    dsimp only at hi ⊢
    have hlt := lt_of_frame hi
    by_cases hlt' : i < a.heap.length
    · rw [deref_append_lt _ _ _ hlt'] at hi ⊢; exact h.heap i m hi
    · have : i = a.heap.length := by rw [List.length_append] at hlt; simp at hlt; omega
      subst this
      rw [deref_append_eq] at hi; cases hi
  | send f hc => exact ⟨h.heap, fun m hm => h.req m (by simpa using hm)⟩
  | effect => exact ⟨h.heap, h.req⟩
  | ack i x y m => exact ⟨pn i, fun m hm => h.req m (by simpa using hm)⟩
  | nack i x y m _ hfr =>
    refine ⟨pn i, fun m' hm => ?_⟩
    simp only [List.mem_append, List.mem_cons, Req.requeue.injEq, Option.some.injEq, List.not_mem_nil, or_false] at hm
    rcases hm with hm | hm | hm
    · exact h.req m' hm
    · subst hm; exact hr _ _ (h.heap i _ hfr)
    · cases hm
  | back i l m _ hfr =>
    refine ⟨h.heap, fun m' hm => ?_⟩
    simp only [List.mem_append, List.mem_cons, Req.requeue.injEq, Option.some.injEq, List.not_mem_nil, or_false] at hm
    rcases hm with hm | hm
    · exact h.req m' hm
    · subst hm; exact hr _ _ (h.heap i _ hfr)
  | lose i l m n _ hfr => exact ⟨pf i _ (al n hfr), h.req⟩
  | auto i l m => exact ⟨pn i, fun m hm => h.req m (by simpa using hm)⟩
  | hold i l m n _ hfr =>
    refine ⟨fun j x hx => ?_, h.req⟩
    dsimp only at hx ⊢
    rw [fixed_putInList]
    rw [frame_putInList] at hx
    exact pf i _ (al n hfr) j x hx
  | release i l m _ hfr =>
    refine ⟨fun j x hx => ?_, fun m' hm => ?_⟩
    · dsimp only at hx ⊢
      rw [fixed_putInList]
      rw [frame_putInList] at hx
      exact h.heap j x hx
    · simp only [List.mem_append, List.mem_cons, Req.requeue.injEq, Option.some.injEq, List.not_mem_nil, or_false] at hm
      rcases hm with hm | hm
      · exact h.req m' hm
      · subst hm; exact hr _ _ (h.heap i _ hfr)

theorem Mics.held {P : Sub → Msg → Prop} {R : Msg → Prop} {a b : Core} (h : a.Held P R) (ha : ∀ x m n, P x m → P x (m.alloc n (some x.ack)))
    (hr : ∀ x m, P x m → R m) (hm : Mics a b) : b.Held P R := by
  induction hm with
  | refl => exact h
  | step _ hm ih => exact hm.held ih ha hr

/-- The write channel only shrinks. -/
theorem Mic.writeCh {a b : Core} (hm : Mic a b) : ∀ m ∈ b.writeCh, m ∈ a.writeCh := by
  cases hm with
  | dropWrite m w hw => intro x hx; rw [hw]; exact List.mem_cons_of_mem _ hx
  | _ => exact fun _ h => h

theorem Mics.writeCh {a b : Core} (hm : Mics a b) : ∀ m ∈ b.writeCh, m ∈ a.writeCh := by
  induction hm with
  | refl => exact fun _ h => h
  | step _ hm ih => exact fun m h => ih m (hm.writeCh m h)

end Stomp.Server
