import Verif.Model.Server.Listen
import Verif.Model.Server.Storage
import Verif.Model.Server.Version
import Verif.Proofs.AMap
import Verif.Proofs.Header
/-! # C31, C40, C48: version choice, queue storage, accept back-off -/
namespace Stomp.Server
open Stomp

/-! ## C48 -/

/-- The sleep after the k-th consecutive temporary error (k from 0). -/
def Spec.backoff (k : Nat) : Int := min (5000000 * 2 ^ k) 5000000000

/-- Specification: the action on each outcome depends only on how many temporary errors immediately precede
it; nothing happens after a permanent error. -/
def Spec.listen : Nat → List AcceptRes → List ListenAct
  | _, [] => []
  | _, .conn :: rs => .serve :: Spec.listen 0 rs
  | k, .temporary :: rs => .sleep (Spec.backoff k) :: Spec.listen (k + 1) rs
  | _, .permanent :: _ => [.stop]

theorem backoff_succ (k : Nat) : (if (if Spec.backoff k = 0 then 5 * millisecond else Spec.backoff k * 2) > 5 * Client.second
    then 5 * Client.second else (if Spec.backoff k = 0 then 5 * millisecond else Spec.backoff k * 2)) =
    Spec.backoff (k + 1) := by
  have hp : (1 : Int) ≤ 2 ^ k := by
    have := Int.pow_pos (n := 2) (m := k) (by omega)
    omega
  have h5 : 5 * Client.second = 5000000000 := rfl
  have hs : (2 : Int) ^ (k + 1) = 2 ^ k * 2 := Int.pow_succ 2 k
  have hne : Spec.backoff k ≠ 0 := by unfold Spec.backoff; omega
  rw [if_neg hne, h5]
  unfold Spec.backoff
  rw [hs]
  split <;> omega

theorem listen_eq (rs : List AcceptRes) (k : Nat) :
    Server.listen (if k = 0 then 0 else Spec.backoff (k - 1)) rs = Spec.listen k rs := by
  induction rs generalizing k with
  | nil => rfl
  | cons r rs ih =>
    cases r with
    | conn =>
      simp only [Server.listen, listenStep, Spec.listen]
      exact congrArg _ (ih 0)
    | permanent => rfl
    | temporary =>
      simp only [Server.listen, listenStep, Spec.listen]
      have key : (if (if (if k = 0 then 0 else Spec.backoff (k - 1)) = 0 then 5 * millisecond
            else (if k = 0 then 0 else Spec.backoff (k - 1)) * 2) > 5 * Client.second
          then 5 * Client.second else (if (if k = 0 then 0 else Spec.backoff (k - 1)) = 0 then 5 * millisecond
            else (if k = 0 then 0 else Spec.backoff (k - 1)) * 2)) = Spec.backoff k := by
        cases k with
        | zero => decide
        | succ k => simp only [Nat.add_one_ne_zero, if_false, Nat.add_sub_cancel]; exact backoff_succ k
      rw [key]
      exact congrArg _ (ih (k + 1))

/-- **C48.** For every sequence of accept outcomes the loop serves every accepted connection, sleeps
`min(5ms·2^k, 5s)` on the (k+1)-th consecutive temporary error, and stops at the first permanent error. -/
theorem C48_backoff (rs : List AcceptRes) : Server.listen 0 rs = Spec.listen 0 rs := listen_eq rs 0

/-- **C48.** No sleep exceeds five seconds and none is shorter than five milliseconds. -/
theorem C48_bounds (rs : List AcceptRes) (d : Int) (h : ListenAct.sleep d ∈ Server.listen 0 rs) :
    5000000 ≤ d ∧ d ≤ 5000000000 := by
  rw [C48_backoff] at h
  have key : ∀ (rs : List AcceptRes) (k : Nat), ListenAct.sleep d ∈ Spec.listen k rs → ∃ j, d = Spec.backoff j := by
    intro rs
    induction rs with
    | nil => intro k h; simp [Spec.listen] at h
    | cons r rs ih =>
      intro k h
      cases r with
      | conn => simp [Spec.listen] at h; exact ih _ h
      | permanent => simp [Spec.listen] at h
      | temporary =>
        simp only [Spec.listen, List.mem_cons] at h
        rcases h with h | h
        · exact ⟨k, by injection h⟩
        · exact ih _ h
  obtain ⟨j, rfl⟩ := key rs 0 h
  have hp : (1 : Int) ≤ 2 ^ j := by
    have := Int.pow_pos (n := 2) (m := j) (by omega)
    omega
  unfold Spec.backoff
  omega

example : Server.listen 0 [.temporary, .temporary, .conn, .temporary, .permanent, .conn] =
    [.sleep 5000000, .sleep 10000000, .serve, .sleep 5000000, .stop] := by decide

example : (Server.listen 0 (List.replicate 12 .temporary)).getLast? = some (.sleep 5000000000) := by decide

/-! ## C40 -/

/-- Storage operations. -/
inductive StoreOp
  | enqueue (q : Bytes) (m : Msg)
  | requeue (q : Bytes) (m : Msg)
  | dequeue (q : Bytes)
  deriving DecidableEq, Repr

/-- The results of a sequence of operations on the storage (only Dequeue returns something). -/
def storeRun : Store → List StoreOp → List (Option Msg) × Store
  | s, [] => ([], s)
  | s, .enqueue q m :: ops => storeRun (s.enqueue q m) ops
  | s, .requeue q m :: ops => storeRun (s.requeue q m) ops
  | s, .dequeue q :: ops =>
    let (r, s') := s.dequeue q
    let (rs, s'') := storeRun s' ops
    (r :: rs, s'')

/-- Specification: one list per name. -/
def Spec.storeRun : (Bytes → List Msg) → List StoreOp → List (Option Msg) × (Bytes → List Msg)
  | s, [] => ([], s)
  | s, .enqueue q m :: ops => Spec.storeRun (fun x => if x = q then s q ++ [m] else s x) ops
  | s, .requeue q m :: ops => Spec.storeRun (fun x => if x = q then m :: s q else s x) ops
  | s, .dequeue q :: ops =>
    let (rs, s') := Spec.storeRun (fun x => if x = q then (s q).tail else s x) ops
    ((s q).head? :: rs, s')

theorem list_enqueue (s : Store) (q : Bytes) (m : Msg) (x : Bytes) :
    AMap.list (s.enqueue q m) x = if x = q then AMap.list s q ++ [m] else AMap.list s x := by
  unfold Store.enqueue
  split
  · rename_i h; rw [AMap.list_set]; simp only [AMap.list, h]; simp only [eq_comm]; split <;> simp_all
  · rename_i h; rw [AMap.list_set]; simp only [AMap.list, h]; simp only [eq_comm]; split <;> simp_all

theorem list_requeue (s : Store) (q : Bytes) (m : Msg) (x : Bytes) :
    AMap.list (s.requeue q m) x = if x = q then m :: AMap.list s q else AMap.list s x := by
  unfold Store.requeue
  split
  · rename_i h; rw [AMap.list_set]; simp only [AMap.list, h]; simp only [eq_comm]; split <;> simp_all
  · rename_i h; rw [AMap.list_set]; simp only [AMap.list, h]; simp only [eq_comm]; split <;> simp_all

theorem dequeue_fst (s : Store) (q : Bytes) : (s.dequeue q).1 = (AMap.list s q).head? := by
  unfold Store.dequeue
  split <;> rename_i h <;> simp [AMap.list, h]

theorem list_dequeue (s : Store) (q x : Bytes) :
    AMap.list (s.dequeue q).2 x = if x = q then (AMap.list s q).tail else AMap.list s x := by
  unfold Store.dequeue
  split
  · rename_i h; simp only [AMap.list]; split
    · rename_i e; subst e; simp [h]
    · rfl
  · rename_i h; simp only [AMap.list]; split
    · rename_i e; subst e; simp [h]
    · rfl
  · rename_i h; rw [AMap.list_set]; simp only [AMap.list, h]; simp only [eq_comm]; split <;> simp_all

theorem storeRun_eq (ops : List StoreOp) (s : Store) (t : Bytes → List Msg) (h : ∀ x, AMap.list s x = t x) :
    (Server.storeRun s ops).1 = (Spec.storeRun t ops).1 ∧
    ∀ x, AMap.list (Server.storeRun s ops).2 x = (Spec.storeRun t ops).2 x := by
  induction ops generalizing s t with
  | nil => exact ⟨rfl, h⟩
  | cons o ops ih =>
    cases o with
    | enqueue q m =>
      exact ih _ _ (fun x => by rw [list_enqueue, h, h])
    | requeue q m =>
      exact ih _ _ (fun x => by rw [list_requeue, h, h])
    | dequeue q =>
      have := ih (s.dequeue q).2 (fun x => if x = q then (t q).tail else t x)
        (fun x => by rw [list_dequeue, h, h])
      simp only [Server.storeRun, Spec.storeRun]
      rw [this.1, dequeue_fst, h]
      exact ⟨rfl, this.2⟩

/-- **C40.** Any sequence of operations on the in-memory storage gives the results of an independent list per
queue name: Enqueue appends, Requeue prepends, Dequeue takes the head or returns nil. -/
theorem C40_deque (ops : List StoreOp) :
    (Server.storeRun [] ops).1 = (Spec.storeRun (fun _ => []) ops).1 ∧
    ∀ x, AMap.list (Server.storeRun [] ops).2 x = (Spec.storeRun (fun _ => []) ops).2 x :=
  storeRun_eq ops [] _ (fun _ => rfl)

/-- The name an operation is about. -/
def StoreOp.name : StoreOp → Bytes
  | .enqueue q _ => q
  | .requeue q _ => q
  | .dequeue q => q

/-- **C40.** Operations on other names have no effect on a name: its content is what its own operations make
of it. -/
theorem C40_independent (ops : List StoreOp) (x : Bytes) :
    AMap.list (Server.storeRun [] ops).2 x =
      AMap.list (Server.storeRun [] (ops.filter (fun o => decide (o.name = x)))).2 x := by
  have key : ∀ (ops : List StoreOp) (s s' : Store), AMap.list s x = AMap.list s' x →
      AMap.list (Server.storeRun s ops).2 x =
      AMap.list (Server.storeRun s' (ops.filter (fun o => decide (o.name = x)))).2 x := by
    intro ops
    induction ops with
    | nil => intro s s' h; exact h
    | cons o ops ih =>
      intro s s' h
      rw [List.filter_cons]
      by_cases hn : o.name = x
      · rw [if_pos (by simp [hn])]
        cases o with
        | enqueue q m =>
          have hq : x = q := hn.symm
          exact ih _ _ (by rw [list_enqueue, list_enqueue, if_pos hq, if_pos hq, ← hq, h])
        | requeue q m =>
          have hq : x = q := hn.symm
          exact ih _ _ (by rw [list_requeue, list_requeue, if_pos hq, if_pos hq, ← hq, h])
        | dequeue q =>
          have hq : x = q := hn.symm
          exact ih (s.dequeue q).2 (s'.dequeue q).2 (by rw [list_dequeue, list_dequeue, if_pos hq, if_pos hq, ← hq, h])
      · rw [if_neg (by simp [hn])]
        cases o with
        | enqueue q m =>
          have hq : x ≠ q := fun e => hn e.symm
          exact ih _ _ (by rw [list_enqueue, if_neg hq, h])
        | requeue q m =>
          have hq : x ≠ q := fun e => hn e.symm
          exact ih _ _ (by rw [list_requeue, if_neg hq, h])
        | dequeue q =>
          have hq : x ≠ q := fun e => hn e.symm
          exact ih (s.dequeue q).2 s' (by rw [list_dequeue, if_neg hq, h])
  exact key ops [] [] rfl

example : (Server.storeRun [] [.enqueue b!"a" ⟨⟨0, 0⟩, default⟩, .enqueue b!"b" ⟨⟨0, 1⟩, default⟩,
    .requeue b!"a" ⟨⟨0, 2⟩, default⟩, .dequeue b!"a", .dequeue b!"a", .dequeue b!"a", .dequeue b!"b"]).1 =
    [some ⟨⟨0, 2⟩, default⟩, some ⟨⟨0, 0⟩, default⟩, none, some ⟨⟨0, 1⟩, default⟩] := by decide

/-! ## C31 -/

theorem mem_strInsert (x y : Bytes) (l : List Bytes) : y ∈ strInsert x l ↔ y = x ∨ y ∈ l := by
  induction l with
  | nil => simp [strInsert]
  | cons z l ih =>
    simp only [strInsert]
    split
    · simp
    · simp only [List.mem_cons, ih]
      constructor
      · rintro (h | h | h)
        · exact Or.inr (Or.inl h)
        · exact Or.inl h
        · exact Or.inr (Or.inr h)
      · rintro (h | h | h)
        · exact Or.inr (Or.inl h)
        · exact Or.inl h
        · exact Or.inr (Or.inr h)

theorem mem_strSort (y : Bytes) (l : List Bytes) : y ∈ strSort l ↔ y ∈ l := by
  induction l with
  | nil => simp [strSort]
  | cons x l ih => simp only [strSort, mem_strInsert, ih, List.mem_cons]

theorem strLe_total (a b : Bytes) : strLe a b = true ∨ strLe b a = true := by
  induction a generalizing b with
  | nil => left; rfl
  | cons x a ih =>
    cases b with
    | nil => right; rfl
    | cons y b =>
      simp only [strLe]
      by_cases h1 : x < y
      · left; rw [if_pos h1]
      · by_cases h2 : y < x
        · right; rw [if_pos h2]
        · rw [if_neg h1, if_neg h2, if_neg h2, if_neg h1]; exact ih b

theorem strLe_trans {a b c : Bytes} (h1 : strLe a b = true) (h2 : strLe b c = true) : strLe a c = true := by
  induction a generalizing b c with
  | nil => rfl
  | cons x a ih =>
    cases b with
    | nil => simp [strLe] at h1
    | cons y b =>
      cases c with
      | nil => simp [strLe] at h2
      | cons z c =>
        simp only [strLe] at h1 h2 ⊢
        by_cases hxy : x < y
        · by_cases hyz : y < z
          · rw [if_pos (UInt8.lt_trans hxy hyz)]
          · rw [if_neg hyz] at h2
            by_cases hzy : z < y
            · rw [if_pos hzy] at h2; cases h2
            · have : y = z := UInt8.le_antisymm (UInt8.not_lt.1 hzy) (UInt8.not_lt.1 hyz)
              subst this; rw [if_pos hxy]
        · rw [if_neg hxy] at h1
          by_cases hyx : y < x
          · rw [if_pos hyx] at h1; cases h1
          · rw [if_neg hyx] at h1
            have : x = y := UInt8.le_antisymm (UInt8.not_lt.1 hyx) (UInt8.not_lt.1 hxy)
            subst this
            by_cases hyz : x < z
            · rw [if_pos hyz]
            · rw [if_neg hyz] at h2 ⊢
              by_cases hzy : z < x
              · rw [if_pos hzy] at h2; cases h2
              · rw [if_neg hzy] at h2 ⊢
                exact ih h1 h2

theorem strInsert_sorted (x : Bytes) (l : List Bytes) (h : l.Pairwise (fun a b => strLe a b = true)) :
    (strInsert x l).Pairwise (fun a b => strLe a b = true) := by
  induction l with
  | nil => simp [strInsert]
  | cons y l ih =>
    simp only [strInsert]
    rw [List.pairwise_cons] at h
    split
    · rename_i hxy
      rw [List.pairwise_cons]
      refine ⟨?_, List.pairwise_cons.2 h⟩
      intro z hz
      rcases List.mem_cons.1 hz with rfl | hz
      · exact hxy
      · exact strLe_trans hxy (h.1 z hz)
    · rename_i hxy
      rw [List.pairwise_cons]
      refine ⟨?_, ih h.2⟩
      intro z hz
      rcases (mem_strInsert x z l).1 hz with rfl | hz
      · exact (strLe_total z y).resolve_left hxy
      · exact h.1 z hz

theorem strSort_sorted (l : List Bytes) : (strSort l).Pairwise (fun a b => strLe a b = true) := by
  induction l with
  | nil => simp [strSort]
  | cons x l ih => exact strInsert_sorted x _ ih

/-- Specification: the greatest known version listed. -/
def Spec.highest (l : List Bytes) : Option Bytes :=
  if b!"1.2" ∈ l then some b!"1.2" else if b!"1.1" ∈ l then some b!"1.1"
  else if b!"1.0" ∈ l then some b!"1.0" else none

theorem pickVersion_sorted (l : List Bytes) (acc : Option Bytes)
    (hs : l.Pairwise (fun a b => strLe a b = true))
    (hacc : ∀ a, acc = some a → ∀ v ∈ l, v ∈ [b!"1.0", b!"1.1", b!"1.2"] → strLe a v = true)
    (ha : ∀ a, acc = some a → a ∈ [b!"1.0", b!"1.1", b!"1.2"]) :
    pickVersion acc l = (Spec.highest l).or acc := by
  induction l generalizing acc with
  | nil => simp [pickVersion, Spec.highest]
  | cons v l ih =>
    rw [List.pairwise_cons] at hs
    have next : ∀ w, w = v → w ∈ [b!"1.0", b!"1.1", b!"1.2"] →
        pickVersion (some w) l = (Spec.highest l).or (some w) := by
      rintro w rfl hw
      refine ih (some w) hs.2 ?_ ?_
      · rintro a ⟨rfl⟩ x hx _; exact hs.1 x hx
      · rintro a ⟨rfl⟩; exact hw
    have skip := ih acc hs.2 (fun a h x hx => hacc a h x (by simp [hx])) ha
    simp only [pickVersion]
    by_cases h0 : v = b!"1.0"
    · subst h0
      rw [if_pos (by rfl)]
      rw [next Client.V10 rfl (by simp [Client.V10])]
      simp only [Spec.highest, List.mem_cons]
      by_cases h2 : b!"1.2" ∈ l
      · simp [h2]
      · by_cases h1 : b!"1.1" ∈ l
        · simp [h1, h2]
        · by_cases h00 : b!"1.0" ∈ l <;> simp [h1, h2, h00, Client.V10]
    · by_cases h1 : v = b!"1.1"
      · subst h1
        rw [if_neg (by decide), if_pos (by rfl), next Client.V11 rfl (by simp [Client.V11])]
        have hn0 : b!"1.0" ∉ l := by
          intro hm; have := hs.1 _ hm; revert this; decide
        simp only [Spec.highest, List.mem_cons]
        by_cases h2 : b!"1.2" ∈ l
        · simp [h2]
        · by_cases h11 : b!"1.1" ∈ l <;> simp [h2, h11, hn0, Client.V11]
      · by_cases h2 : v = b!"1.2"
        · subst h2
          rw [if_neg (by decide), if_neg (by decide), if_pos (by rfl), next Client.V12 rfl (by simp [Client.V12])]
          have hn0 : b!"1.0" ∉ l := by
            intro hm; have := hs.1 _ hm; revert this; decide
          have hn1 : b!"1.1" ∉ l := by
            intro hm; have := hs.1 _ hm; revert this; decide
          simp only [Spec.highest, List.mem_cons]
          by_cases h22 : b!"1.2" ∈ l <;> simp [h22, hn0, hn1, Client.V12]
        · rw [if_neg (show ¬v = Client.V10 from h0), if_neg (show ¬v = Client.V11 from h1),
            if_neg (show ¬v = Client.V12 from h2), skip]
          have e0 : (b!"1.0" ∈ v :: l) = (b!"1.0" ∈ l) := by
            rw [List.mem_cons]; exact propext ⟨fun h => h.resolve_left (fun e => h0 e.symm), Or.inr⟩
          have e1 : (b!"1.1" ∈ v :: l) = (b!"1.1" ∈ l) := by
            rw [List.mem_cons]; exact propext ⟨fun h => h.resolve_left (fun e => h1 e.symm), Or.inr⟩
          have e2 : (b!"1.2" ∈ v :: l) = (b!"1.2" ∈ l) := by
            rw [List.mem_cons]; exact propext ⟨fun h => h.resolve_left (fun e => h2 e.symm), Or.inr⟩
          unfold Spec.highest
          simp only [e0, e1, e2]

theorem highest_congr (l l' : List Bytes) (h : ∀ v, v ∈ l ↔ v ∈ l') : Spec.highest l = Spec.highest l' := by
  unfold Spec.highest; simp only [h]

/-- **C31.** For a CONNECT or STOMP frame with an accept-version header the server chooses the greatest of 1.0,
1.1 and 1.2 among the comma-separated entries, whatever their order, duplicates and unknown entries; with none of
them listed it is an error. -/
theorem C31_highest (f : Frame) (av : Bytes) (hc : f.command = b!"CONNECT" ∨ f.command = b!"STOMP")
    (ha : Stomp.Spec.firstValue f.header b!"accept-version" = some av) :
    determineVersion f =
      match Spec.highest (splitOn 44 av) with
      | some v => .ok v
      | none => .error .unknownVersion := by
  unfold determineVersion
  rw [if_neg (by simp only [not_and, ne_eq, Decidable.not_not]; intro h; exact hc.resolve_left h)]
  rw [contains_eq]
  simp only [show Hdr.acceptVersion = b!"accept-version" from rfl, ha]
  rw [pickVersion_sorted _ none (strSort_sorted _) (by simp) (by simp), Option.or_none,
    highest_congr _ (splitOn 44 av) (fun v => mem_strSort v _)]
  cases Spec.highest (splitOn 44 av) <;> rfl

/-- **C31.** Without the header CONNECT means 1.0 and STOMP is an error; other commands are no handshake. -/
theorem C31_absent (f : Frame) (ha : Stomp.Spec.firstValue f.header b!"accept-version" = none) :
    determineVersion f =
      if f.command = b!"CONNECT" then .ok b!"1.0"
      else if f.command = b!"STOMP" then .error (.missingHeader b!"accept-version")
      else .error .notConnectFrame := by
  unfold determineVersion
  rw [contains_eq]
  simp only [show Hdr.acceptVersion = b!"accept-version" from rfl, ha, Cmd.connect, Cmd.stomp, Client.V10]
  by_cases h1 : f.command = b!"CONNECT"
  · simp [h1]
  · by_cases h2 : f.command = b!"STOMP"
    · simp [h2]
    · simp [h1, h2]

example : determineVersion ⟨b!"CONNECT", [(b!"accept-version", b!"1.2,2.0,1.0,1.1,1.2, 1.3")], []⟩ = .ok b!"1.2" := rfl
example : determineVersion ⟨b!"STOMP", [(b!"accept-version", b!"1.1,1.0")], []⟩ = .ok b!"1.1" := rfl

end Stomp.Server
