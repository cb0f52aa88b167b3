import Verif.Model.Client.Grace
import Verif.Proofs.Float64
import Verif.Props.Client.Timer
/-!
# C80: the read timer runs for the read timeout times the grace period multiplier
-/
namespace Stomp.Client
open Stomp

/-- The model of rounding is that of IEEE 754: the nearest float64, ties to even. -/
theorem C80_nearest (n : Nat) : Stomp.Spec.Nearest n (F64.round n) := F64.round_nearest n

/-- With a multiplier of 1, the default, the timer runs for the read timeout to the nanosecond, for timeouts of up to 104 days. -/
theorem C80_default {info : ConnInfo} (hg : info.grace.neg = false) (h1 : Stomp.Spec.num info.grace = Stomp.Spec.den info.grace)
    (h0 : 0 ≤ info.readTimeout) (h2 : info.readTimeout ≤ 2 ^ 53) (out : Int) : readDuration info out = info.readTimeout := by
  have hr : info.grace.mulInt info.readTimeout.toNat = info.readTimeout.toNat := by
    rw [F64.mulInt_one h1, F64.round_rep (F64.rep_small (by omega))]
  unfold readDuration
  dsimp only
  rw [hg, hr]
  simp only [Bool.false_eq_true, if_false]
  rw [if_pos (by omega)]
  omega

/-- The error of the product, for every multiplier that is not negative: the timer runs for the exact product within a relative error of about `2 ^ -52` (two roundings), rounded down to a nanosecond,
provided the product is below `2 ^ 62` nanoseconds. -/
theorem C80_error_partial {info : ConnInfo} (hg : info.grace.neg = false) (h0 : 0 ≤ info.readTimeout)
    (h : info.readTimeout * Stomp.Spec.num info.grace < 2 ^ 62 * Stomp.Spec.den info.grace) (out : Int) :
    2 ^ 106 * (readDuration info out * Stomp.Spec.den info.grace) ≤ (2 ^ 53 + 1) ^ 2 * (info.readTimeout * Stomp.Spec.num info.grace) ∧
    (2 ^ 53 - 1) ^ 2 * (info.readTimeout * Stomp.Spec.num info.grace) < 2 ^ 106 * ((readDuration info out + 1) * Stomp.Spec.den info.grace) := by
  obtain ⟨d, hd⟩ := Int.eq_ofNat_of_zero_le h0
  rw [hd] at h ⊢
  have hf : info.grace.mulInt d < 2 ^ 63 := F64.mulInt_fits (by exact_mod_cast h)
  have he := F64.mulInt_error info.grace d
  have hr : readDuration info out = info.grace.mulInt d := by
    unfold readDuration
    dsimp only
    rw [hg, hd]
    simp only [Bool.false_eq_true, if_false, Int.toNat_natCast]
    rw [if_pos hf]
  rw [hr]
  constructor
  · exact_mod_cast he.1
  · have h2 := he.2
    have h3 : ((2 : Int) ^ 53 - 1) ^ 2 = (((2 ^ 53 - 1) ^ 2 : Nat) : Int) := by decide
    rw [h3]
    exact_mod_cast h2

/-- A multiplier of at least 1 never makes the timer run for less than the read timeout. -/
theorem C80_not_shorter_partial {info : ConnInfo} (hg : info.grace.neg = false) (h1 : Stomp.Spec.den info.grace ≤ Stomp.Spec.num info.grace)
    (h0 : 0 ≤ info.readTimeout) (h2 : info.readTimeout ≤ 2 ^ 53)
    (h : info.readTimeout * Stomp.Spec.num info.grace < 2 ^ 62 * Stomp.Spec.den info.grace) (out : Int) : info.readTimeout ≤ readDuration info out := by
  obtain ⟨d, hd⟩ := Int.eq_ofNat_of_zero_le h0
  rw [hd] at h h2
  have hf : info.grace.mulInt d < 2 ^ 63 := F64.mulInt_fits (by exact_mod_cast h)
  have hge := F64.mulInt_ge (d := d) h1
  rw [F64.round_rep (F64.rep_small (by exact_mod_cast h2))] at hge
  unfold readDuration
  dsimp only
  rw [hg, hd]
  simp only [Bool.false_eq_true, if_false, Int.toNat_natCast]
  rw [if_pos hf]
  omega

/-- A longer read timeout never gives a shorter timer. -/
theorem C80_monotone {a b : ConnInfo} (hg : a.grace = b.grace) (hn : a.grace.neg = false) (h : a.readTimeout ≤ b.readTimeout)
    (hb : b.readTimeout * Stomp.Spec.num b.grace < 2 ^ 62 * Stomp.Spec.den b.grace) (hb0 : 0 ≤ b.readTimeout) (out : Int) : readDuration a out ≤ readDuration b out := by
  obtain ⟨d, hd⟩ := Int.eq_ofNat_of_zero_le hb0
  have hf : b.grace.mulInt d < 2 ^ 63 := F64.mulInt_fits (by rw [hd] at hb; exact_mod_cast hb)
  have hm : a.grace.mulInt a.readTimeout.toNat ≤ b.grace.mulInt d := by
    rw [hg]; exact F64.mulInt_mono (by omega)
  unfold readDuration
  dsimp only
  rw [← hg, hn, hd, hg]
  rw [hg] at hm
  simp only [Bool.false_eq_true, if_false, Int.toNat_natCast]
  rw [if_pos hf, if_pos (by omega)]
  omega

/-- What this means for the connection: a client that was connected with a multiplier of at least 1 gives up only if it has taken nothing from the network for the whole read timeout. -/
theorem C80_client_partial {opts : List ConnOpt} {remote : Option Bytes} {inp : Bytes} {info : ConnInfo} {out : Int} {sys : Cfg}
    (_hc : (connect opts remote true inp).2 = .ok info) (hg : info.grace.neg = false) (h1 : Stomp.Spec.den info.grace ≤ Stomp.Spec.num info.grace)
    (h0 : 0 ≤ info.readTimeout) (h2 : info.readTimeout ≤ 2 ^ 53)
    (hp : info.readTimeout * Stomp.Spec.num info.grace < 2 ^ 62 * Stomp.Spec.den info.grace)
    {n : Nat} {es : List TEv} {x x' : TSys} {o : List Nat} (h : (TSys.init (info.timers out sys) n).run (info.timers out sys) es = some x)
    (h' : x.step (info.timers out sys) (.step (.loopTimeout o)) = some x') :
    info.readTimeout ≤ x.now ∧ ∀ t l f, (t, l, Obs.took f) ∈ x.log → t + info.readTimeout ≤ x.now := by
  have hr := C80_not_shorter_partial hg h1 h0 h2 hp out
  obtain ⟨k1, k2⟩ := C29_read h h'
  have hread : (info.timers out sys).read = (readDuration info out).toNat := rfl
  rw [hread] at k1 k2
  refine ⟨by omega, fun t l f hm => ?_⟩
  have := k2 t l f hm
  omega

/-- With a negative multiplier the timer fires at once (if the product is in the range of int64), whatever the read timeout: the client gives the server up though it has not been silent. -/
theorem C80_negative_partial {info : ConnInfo} (hg : info.grace.neg = true) (h0 : 0 ≤ info.readTimeout)
    (h : info.readTimeout * Stomp.Spec.num info.grace < 2 ^ 62 * Stomp.Spec.den info.grace) (out : Int) (sys : Cfg) : readDuration info out ≤ 0 ∧ (info.timers out sys).read = 0 := by
  obtain ⟨d, hd⟩ := Int.eq_ofNat_of_zero_le h0
  rw [hd] at h
  have hf : info.grace.mulInt d < 2 ^ 63 := F64.mulInt_fits (by exact_mod_cast h)
  have hr : readDuration info out ≤ 0 := by
    unfold readDuration
    rw [hd]
    simp only [hg, if_true, Int.toNat_natCast]
    rw [if_pos (by omega)]
    omega
  refine ⟨hr, ?_⟩
  simp only [ConnInfo.timers]
  omega

/-- Without a read timeout there is no read timer: the client never gives the server up for its silence, in whatever state and whatever the multiplier. Without a write timeout it sends no heart-beats. -/
theorem C80_off (info : ConnInfo) (out : Int) (sys : Cfg) (x : TSys) :
    (info.readTimeout ≤ 0 → ∀ o, x.step (info.timers out sys) (.step (.loopTimeout o)) = none) ∧
    (info.writeTimeout ≤ 0 → ∀ ok o, x.step (info.timers out sys) (.step (.loopBeat ok o)) = none) := by
  constructor
  · intro h o
    have hr : (info.timers out sys).sys.readTimeout = false := decide_eq_false (by omega)
    have : x.sys.step (info.timers out sys).sys (.loopTimeout o) = none := by
      simp [Sys.step, hr]
    simp only [TSys.step, this]
    cases x.timers _ <;> rfl
  · intro h ok o
    have hr : (info.timers out sys).sys.writeTimeout = false := decide_eq_false (by omega)
    have : x.sys.step (info.timers out sys).sys (.loopBeat ok o) = none := by
      simp [Sys.step, Sys.loopBeat, hr]
    simp only [TSys.step, this]
    cases x.timers _ <;> rfl

/-- With a read timeout, however short, the read timer runs from the start, for the duration of `readDuration`; with a write timeout the write timer does, for the write timeout. -/
theorem C80_on (info : ConnInfo) (out : Int) (sys : Cfg) (n : Nat) :
    (0 < info.readTimeout → (TSys.init (info.timers out sys) n).readTimer = some (readDuration info out).toNat) ∧
    (0 < info.writeTimeout → ∃ w, (TSys.init (info.timers out sys) n).writeTimer = some w ∧ (w : Int) = info.writeTimeout) := by
  constructor
  · intro h
    simp [TSys.init, TSys.arm, Sys.init, ConnInfo.timers, h]
  · intro h
    refine ⟨info.writeTimeout.toNat, ?_, by omega⟩
    simp [TSys.init, TSys.arm, Sys.init, ConnInfo.timers, h]

namespace GraceEx

def cfg : Cfg := ⟨20, 20, false, false, false, false, false, false⟩

/-- A server that has no heart-beats of its own. -/
def reply : Bytes := writeFrame (some ⟨b!"CONNECTED", [(b!"version", b!"1.2"), (b!"heart-beat", b!"0,0")], []⟩)

def none_ : ConnInfo :=
  { version := [], session := [], server := [], readTimeout := 0, writeTimeout := 0, readCap := 0, writeCap := 0, msgSendTimeout := 0, rcvReceiptTimeout := 0,
    disconnectReceiptTimeout := 0, unsubscribeReceiptTimeout := 0, grace := F64.one }

def infoOf (opts : List ConnOpt) : ConnInfo :=
  match (connect opts none true reply).2 with
  | .ok i => i
  | .error _ => none_

/-- The longest read timeout there is. -/
def forever : List ConnOpt := [.heartBeat 0 (2 ^ 63 - 1), .heartBeatError 0]

/-- The float64 1.2, i.e. 5404319552844595 / 2 ^ 52. -/
def fifth : F64 := ⟨false, 5404319552844595, -52⟩

def wide : List ConnOpt := [.gracePeriod fifth]
def half : List ConnOpt := [.gracePeriod ⟨false, 1, -1⟩]

def after (opts : List ConnOpt) (es : List TEv) : TSys :=
  ((TSys.init ((infoOf opts).timers 0 cfg) 0).run ((infoOf opts).timers 0 cfg) es).getD (TSys.init ((infoOf opts).timers 0 cfg) 0)

end GraceEx

/-- The claim is false as worded: for a read timeout of `2 ^ 63 - 1` nanoseconds and the default multiplier the product is rounded to `2 ^ 63`, which is not an int64, and the duration is whatever the
implementation makes of it; where it is negative the client gives up at once. -/
theorem C80_false : ∃ opts info, (connect opts none true GraceEx.reply).2 = .ok info ∧ info.grace = F64.one ∧ info.readTimeout = 2 ^ 63 - 1 ∧
    (∀ out, readDuration info out = out) ∧
    ∃ x', (TSys.init (info.timers (-2 ^ 63) GraceEx.cfg) 0).step (info.timers (-2 ^ 63) GraceEx.cfg) (.step (.loopTimeout [])) = some x' := by
  have h1 : (connect GraceEx.forever none true GraceEx.reply).2 = .ok (GraceEx.infoOf GraceEx.forever) := by rfl
  refine ⟨GraceEx.forever, GraceEx.infoOf GraceEx.forever, h1, by decide +kernel, by decide +kernel, ?_, ?_⟩
  · intro out
    have hn : (GraceEx.infoOf GraceEx.forever).grace.neg = false := by decide +kernel
    have hm : ¬ (GraceEx.infoOf GraceEx.forever).grace.mulInt (GraceEx.infoOf GraceEx.forever).readTimeout.toNat < 2 ^ 63 := by decide +kernel
    unfold readDuration
    dsimp only
    rw [hn]
    simp only [Bool.false_eq_true, if_false]
    rw [if_neg hm]
  · have : ((TSys.init ((GraceEx.infoOf GraceEx.forever).timers (-2 ^ 63) GraceEx.cfg) 0).step ((GraceEx.infoOf GraceEx.forever).timers (-2 ^ 63) GraceEx.cfg)
      (.step (.loopTimeout []))).isSome = true := by decide +kernel
    exact Option.isSome_iff_exists.1 this

namespace GraceEx

/-- The hypotheses of `C80_off`: with the default options and a server that wants no heart-beats the client has no write timer; without heart-beats of its own it has no read timer. -/
example : (infoOf []).writeTimeout ≤ 0 ∧ 0 < (infoOf []).readTimeout ∧ (infoOf [.heartBeat 0 0, .heartBeatError 0]).readTimeout ≤ 0 := by decide +kernel

/-- `C80_on`: 65 seconds from the start. -/
example : (TSys.init ((infoOf []).timers 0 cfg) 0).readTimer = some 65000000000 := by decide +kernel

/-- The default options: 65 seconds. -/
example : (infoOf []).grace.neg = false ∧ Stomp.Spec.num (infoOf []).grace = Stomp.Spec.den (infoOf []).grace ∧ 0 ≤ (infoOf []).readTimeout ∧
    (infoOf []).readTimeout ≤ 2 ^ 53 ∧ readDuration (infoOf []) 0 = 65 * second := by decide +kernel

/-- A multiplier of 1.2: the float64 is a little less than 1.2, and the product is rounded to 78 seconds. -/
example : (infoOf wide).grace.neg = false ∧ Stomp.Spec.den (infoOf wide).grace ≤ Stomp.Spec.num (infoOf wide).grace ∧ 0 ≤ (infoOf wide).readTimeout ∧
    (infoOf wide).readTimeout ≤ 2 ^ 53 ∧ (infoOf wide).readTimeout * Stomp.Spec.num (infoOf wide).grace < 2 ^ 62 * Stomp.Spec.den (infoOf wide).grace ∧
    5 * Stomp.Spec.num (infoOf wide).grace < 6 * Stomp.Spec.den (infoOf wide).grace ∧ readDuration (infoOf wide) 0 = 78 * second := by decide +kernel

/-- It gives up after 78 seconds without anything from the server, and not before. -/
example : (connect wide none true reply).2 = .ok (infoOf wide) ∧
    (TSys.init ((infoOf wide).timers 0 cfg) 0).run ((infoOf wide).timers 0 cfg) [.delay 78000000000] = some (after wide [.delay 78000000000]) ∧
    ((after wide [.delay 78000000000]).step ((infoOf wide).timers 0 cfg) (.step (.loopTimeout []))).isSome = true ∧
    ((after wide [.delay 77999999999]).step ((infoOf wide).timers 0 cfg) (.step (.loopTimeout []))).isSome = false :=
  ⟨by rfl, by rfl, by decide +kernel, by decide +kernel⟩

/-- A multiplier of 1/2, which `C80_client_partial` excludes: it gives up after half of the read timeout. -/
example : (infoOf half).readTimeout = 65 * second ∧ readDuration (infoOf half) 0 = 32500000000 ∧
    ((after half [.delay 32500000000]).step ((infoOf half).timers 0 cfg) (.step (.loopTimeout []))).isSome = true := by decide +kernel

end GraceEx

/-- Three seconds times -1.5; and the smallest int64 there is. -/
example : readDuration { GraceEx.none_ with readTimeout := 3000000000, grace := ⟨true, 3, -1⟩ } 7 = -4500000000 := by decide +kernel
example : readDuration { GraceEx.none_ with readTimeout := 3000000000, grace := ⟨true, 3, -1⟩ } 7 ≤ 0 ∧ (({ GraceEx.none_ with readTimeout := 3000000000, grace := ⟨true, 3, -1⟩ } : ConnInfo).timers 7 GraceEx.cfg).read = 0 :=
  C80_negative_partial rfl (by decide +kernel) (by decide +kernel) 7 _
example : ∀ out, readDuration { GraceEx.none_ with readTimeout := 2 ^ 62, grace := ⟨true, 1, 1⟩ } out = -2 ^ 63 := by
  intro out
  have h : (⟨true, 1, 1⟩ : F64).mulInt (2 ^ 62 : Int).toNat = 2 ^ 63 := by decide +kernel
  simp only [readDuration, h, if_true]
  rw [if_pos (Nat.le_refl _)]
  decide

/-- One below it, of either sign: up to the implementation. -/
example : ∀ out, readDuration { GraceEx.none_ with readTimeout := 2 ^ 62 + 2 ^ 10, grace := ⟨true, 1, 1⟩ } out = out ∧
    readDuration { GraceEx.none_ with readTimeout := 2 ^ 62, grace := ⟨false, 1, 1⟩ } out = out := by
  intro out
  have h : (⟨true, 1, 1⟩ : F64).mulInt (2 ^ 62 + 2 ^ 10 : Int).toNat = 2 ^ 63 + 2 ^ 11 := by decide +kernel
  have h' : (⟨false, 1, 1⟩ : F64).mulInt (2 ^ 62 : Int).toNat = 2 ^ 63 := by decide +kernel
  simp only [readDuration, h, h', if_true]
  exact ⟨if_neg (by omega), by rw [if_neg (by decide), if_neg (by omega)]⟩

end Stomp.Client
