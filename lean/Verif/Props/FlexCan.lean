/-
The CAN adapter of the ARM example with its controller: C92.
-/
import Verif.Spec.FlexCan
import Verif.Props.Can

namespace Vscp.FlexProps
open Vscp.Driver.Can (flexRead flexWrite flexUnpack flexPack poll packId FlexFrame)
open Vscp.Driver Vscp.Driver.Flex Vscp.Spec.Drv Vscp.Spec.Flex Vscp.CanProps

/-- What holds behind the initialisation: nobody changes the masks; the buffers 0 to 13, and no others, are for reception, with identifier 0; a flag is set
for those which hold a frame not yet read. -/
structure Inv (c : Ctl) : Prop where
  mg : c.mg = 0x3FFFFFFF
  m14 : c.m14 = 0x3FFFFFFF
  m15 : c.m15 = 0x3FFFFFFF
  rx : ∀ k, (c.mb k).rx = true ↔ k < 14
  id : ∀ k, k < 14 → (c.mb k).id = 0
  flag : ∀ k, c.flag k = true → k < 14 ∧ ((c.mb k).code = .full ∨ (c.mb k).code = .overrun)
  tx : (c.mb 15).code ≠ .txData

theorem mask_eq {c : Ctl} (h : Inv c) (k : Nat) : c.mask k = 0x3FFFFFFF := by
  unfold Ctl.mask
  rw [h.mg, h.m14, h.m15]
  simp only [ite_self]

theorem initRx_mb (n : Nat) (c : Ctl) (k : Nat) :
    (initRx n c).mb k = if k < n then ⟨.empty, true, false, 0, 0, 0, 0, false⟩ else c.mb k := by
  induction n with
  | zero => rfl
  | succ n ih =>
    rw [initRx, setRxMb]
    dsimp only
    rw [ih]
    by_cases h : k = n
    · subst h
      rw [if_pos rfl, if_pos (by omega)]
    · rw [if_neg h]
      by_cases h' : k < n
      · rw [if_pos h', if_pos (by omega)]
      · rw [if_neg h', if_neg (by omega)]

theorem initRx_rest (n : Nat) (c : Ctl) :
    (initRx n c).mg = c.mg ∧ (initRx n c).m14 = c.m14 ∧ (initRx n c).m15 = c.m15 ∧ (initRx n c).flag = c.flag ∧ (initRx n c).sent = c.sent := by
  induction n with
  | zero => exact ⟨rfl, rfl, rfl, rfl, rfl⟩
  | succ n ih => exact ih

theorem init_mb (mb : Nat → Mb) (k : Nat) :
    (init mb).mb k = if k = 14 then ⟨.txInactive, false, false, 0, 0, 0, 0, false⟩
      else if k < 15 then ⟨.empty, true, false, 0, 0, 0, 0, false⟩
      else { mb k with code := .inactive, ide := false, rtr := false, dlc := 0, served := false } := by
  rw [init, setTxMb]
  dsimp only
  rw [initRx_mb]
  rfl

theorem init_inv (mb : Nat → Mb) : Inv (init mb) := by
  obtain ⟨h1, h2, h3, h4, h5⟩ := initRx_rest 15 (initCtl mb)
  refine ⟨h1, h2, h3, fun k => ?_, fun k hk => ?_, fun k hk => ?_, ?_⟩
  · rw [init_mb]
    by_cases h : k = 14
    · rw [if_pos h]
      exact ⟨fun hx => (by cases hx), fun hx => by omega⟩
    · rw [if_neg h]
      by_cases h' : k < 15
      · rw [if_pos h']
        exact ⟨fun _ => by omega, fun _ => rfl⟩
      · rw [if_neg h']
        exact ⟨fun hx => (by cases hx), fun hx => by omega⟩
  · rw [init_mb, if_neg (by omega), if_pos (by omega)]
  · have : (init mb).flag = (initCtl mb).flag := h4
    rw [this] at hk
    cases hk
  · rw [init_mb, if_neg (by decide), if_neg (by decide)]
    exact fun h => (by cases h)

/-- The identifier of a frame is 0 iff its ID field is. -/
theorem field_zero (f : Frame) : f.field = 0 ↔ ident f = 0 := by
  unfold Frame.field ident
  cases f.ide
  · simp only [Bool.false_eq_true, if_false]
    rw [← BitVec.toNat_inj, BitVec.toNat_shiftLeft, BitVec.toNat_and, show (0x7FF : U32).toNat = 2 ^ 11 - 1 from rfl, and_low, Nat.shiftLeft_eq]
    show _ = 0 ↔ _
    omega
  · simp only [if_true]
    rw [← BitVec.toNat_inj, BitVec.toNat_and, show (0x1FFFFFFF : U32).toNat = 2 ^ 29 - 1 from rfl, and_low]
    exact Iff.rfl

theorem field_masked (f : Frame) : f.field &&& 0x3FFFFFFF &&& (if f.ide then 0x1FFFFFFF else 0x1FFC0000) = f.field := by
  unfold Frame.field
  cases f.ide
  · simp only [Bool.false_eq_true, if_false]
    apply BitVec.eq_of_getLsbD_eq
    intro i hi
    have : ∀ i : Nat, i < 32 → ((0x3FFFFFFF : U32).getLsbD i && (0x1FFC0000 : U32).getLsbD i) = (decide (18 ≤ i) && (0x7FF : U32).getLsbD (i - 18)) := by decide
    have hi' := this i hi
    simp only [BitVec.getLsbD_and, BitVec.getLsbD_shiftLeft, hi, decide_true, Bool.true_and, Bool.and_assoc, hi']
    by_cases h18 : i < 18
    · rw [decide_eq_true h18]; rfl
    · rw [decide_eq_false h18, decide_eq_true (by omega : 18 ≤ i)]
      simp only [Bool.not_false, Bool.true_and, Bool.and_self]
  · simp only [if_true]
    rw [BitVec.and_assoc, BitVec.and_assoc]
    rfl

/-- In every reachable state: the frame passes a receive buffer iff its identifier is 0. -/
theorem matches_iff {c : Ctl} (h : Inv c) (f : Frame) (k : Nat) (hk : k < 14) : matches? (c.mask k) (c.mb k) f = true ↔ ident f = 0 := by
  rw [← field_zero]
  unfold matches?
  rw [mask_eq h, field_masked, h.id k hk]
  have h30 : (0x3FFFFFFF : U32).getLsbD 30 = false := by decide
  have h31 : (0x3FFFFFFF : U32).getLsbD 31 = false := by decide
  rw [h30, h31]
  simp only [Bool.not_false, Bool.true_or, Bool.and_true, decide_eq_true_eq]
  cases f.ide <;> exact Iff.rfl

theorem receive_other {c : Ctl} (h : Inv c) (f : Frame) (hf : ident f ≠ 0) : c.receive f = c := by
  unfold Ctl.receive
  have hp : ((List.range 16).filter fun k => (c.mb k).rx && matches? (c.mask k) (c.mb k) f) = [] := by
    rw [List.filter_eq_nil_iff]
    intro k _ hk
    rw [Bool.and_eq_true] at hk
    exact hf ((matches_iff h f k ((h.rx k).1 hk.1)).1 hk.2)
  simp only [hp, List.find?_nil, List.getLast?_nil]

theorem receive_zero {c : Ctl} (h : Inv c) (f : Frame) (hf : ident f = 0) :
    ∃ k code, k < 14 ∧ (code = .full ∨ code = .overrun) ∧ c.receive f = c.store k code f := by
  unfold Ctl.receive
  have hm : ∀ k, k ∈ ((List.range 16).filter fun k => (c.mb k).rx && matches? (c.mask k) (c.mb k) f) ↔ k < 14 := by
    intro k
    rw [List.mem_filter, List.mem_range, Bool.and_eq_true]
    constructor
    · exact fun hk => (h.rx k).1 hk.2.1
    · exact fun hk => ⟨by omega, (h.rx k).2 hk, (matches_iff h f k hk).2 hf⟩
  revert hm
  generalize ((List.range 16).filter fun k => (c.mb k).rx && matches? (c.mask k) (c.mb k) f) = pass
  intro hm
  dsimp only
  cases hx : pass.find? fun k => (c.mb k).free with
  | some k => exact ⟨k, .full, (hm k).1 (List.mem_of_find?_eq_some hx), Or.inl rfl, rfl⟩
  | none =>
    cases hl : pass.getLast? with
    | some k => exact ⟨k, .overrun, (hm k).1 (List.mem_of_getLast? hl), Or.inr rfl, rfl⟩
    | none =>
      rw [List.getLast?_eq_none_iff] at hl
      exact absurd ((hm 0).2 (by omega)) (by rw [hl]; exact List.not_mem_nil)

theorem store_inv {c : Ctl} (h : Inv c) (f : Frame) (hf : ident f = 0) {k : Nat} {code : Code} (hk : k < 14) (hc : code = .full ∨ code = .overrun) :
    Inv (c.store k code f) := by
  refine ⟨h.mg, h.m14, h.m15, fun j => ?_, fun j hj => ?_, fun j hj => ?_, ?_⟩
  · unfold Ctl.store
    dsimp only
    by_cases hjk : j = k
    · rw [if_pos hjk]
      subst hjk
      refine ⟨fun _ => hk, fun _ => ?_⟩
      cases hc with
      | inl h => rw [h]; rfl
      | inr h => rw [h]; rfl
    · rw [if_neg hjk]
      exact h.rx j
  · unfold Ctl.store
    dsimp only
    by_cases hjk : j = k
    · rw [if_pos hjk]
      exact (field_zero f).2 hf
    · rw [if_neg hjk]
      exact h.id j hj
  · unfold Ctl.store at hj ⊢
    dsimp only at hj ⊢
    by_cases hjk : j = k
    · rw [if_pos hjk]
      exact ⟨hjk ▸ hk, hc⟩
    · rw [if_neg hjk] at hj ⊢
      exact h.flag j hj
  · unfold Ctl.store
    dsimp only
    rw [if_neg (by omega)]
    exact h.tx

theorem receive_inv {c : Ctl} (h : Inv c) (f : Frame) : Inv (c.receive f) := by
  by_cases hf : ident f = 0
  · obtain ⟨k, code, hk, hc, hr⟩ := receive_zero h f hf
    rw [hr]
    exact store_inv h f hf hk hc
  · rw [receive_other h f hf]
    exact h

theorem receive_sent (c : Ctl) (f : Frame) : (c.receive f).sent = c.sent := by
  unfold Ctl.receive
  dsimp only
  split
  · rfl
  · split <;> rfl

/-- The state of the adapter. -/
structure SInv (s : State) : Prop where
  idx : s.mbIdx < 15
  ctl : Inv s.ctl

/-- The controller behind reading buffer `k`. -/
def after (c : Ctl) (k : Nat) : Ctl :=
  { c with
    mb := fun j => if j = k then { c.mb k with served := true } else c.mb j
    flag := fun j => if j = k then false else c.flag j }

theorem after_inv {c : Ctl} (h : Inv c) (k : Nat) (hk : k < 14) : Inv (after c k) := by
  refine ⟨h.mg, h.m14, h.m15, fun j => ?_, fun j hj => ?_, fun j hj => ?_, ?_⟩
  · unfold after
    dsimp only
    by_cases hjk : j = k
    · rw [if_pos hjk]
      subst hjk
      exact h.rx j
    · rw [if_neg hjk]
      exact h.rx j
  · unfold after
    dsimp only
    by_cases hjk : j = k
    · rw [if_pos hjk]
      exact h.id k hk
    · rw [if_neg hjk]
      exact h.id j hj
  · unfold after at hj ⊢
    dsimp only at hj ⊢
    by_cases hjk : j = k
    · rw [if_pos hjk] at hj
      cases hj
    · rw [if_neg hjk] at hj ⊢
      exact h.flag j hj
  · unfold after
    dsimp only
    rw [if_neg (by omega)]
    exact h.tx

/-- The read function in a reachable state. -/
theorem read_eq {s : State} (h : SInv s) (old : Msg) :
    readMessage old s =
      if s.ctl.flag s.mbIdx then
        (flexRead ⟨0, (s.ctl.mb s.mbIdx).dlc, (s.ctl.mb s.mbIdx).word0, (s.ctl.mb s.mbIdx).word1⟩ old).map
          fun m => (some m, ⟨s.mbIdx, after s.ctl s.mbIdx⟩)
      else some (none, { s with mbIdx := (s.mbIdx + 1) % 15 }) := by
  unfold readMessage
  rw [poll_eq _ _ h.idx]
  by_cases hf : s.ctl.flag s.mbIdx = true
  · obtain ⟨hk, hc⟩ := h.ctl.flag _ hf
    simp only [hf, if_true]
    unfold readRxMb
    simp only [hc, if_true]
    rw [show (s.ctl.mb s.mbIdx).id &&& 0x1FFFFFFF = 0 by rw [h.ctl.id _ hk]; decide]
    cases flexRead ⟨0, (s.ctl.mb s.mbIdx).dlc, (s.ctl.mb s.mbIdx).word0, (s.ctl.mb s.mbIdx).word1⟩ old with
    | none => rfl
    | some m => rfl
  · simp only [hf]
    rfl

theorem flexRead_zero {l : U8} {w0 w1 : U32} {old m : Msg} (h : flexRead ⟨0, l, w0, w1⟩ old = some m) : Zero m ∧ m.size = l := by
  unfold flexRead at h
  cases hu : flexUnpack ⟨0, l, w0, w1⟩ 0 old.data with
  | none => rw [hu] at h; cases h
  | some d =>
    rw [hu] at h
    cases h
    refine ⟨⟨?_, ?_, ?_, ?_, ?_⟩, rfl⟩ <;> dsimp only <;> first | decide | exact decide_eq_false (by decide)

theorem read_inv {s : State} (h : SInv s) (old : Msg) {r : Option Msg × State} (hr : readMessage old s = some r) :
    SInv r.2 ∧ (∀ m, r.1 = some m → Zero m) ∧ r.2.ctl.sent = s.ctl.sent := by
  rw [read_eq h] at hr
  by_cases hf : s.ctl.flag s.mbIdx = true
  · rw [if_pos hf] at hr
    cases hx : flexRead ⟨0, (s.ctl.mb s.mbIdx).dlc, (s.ctl.mb s.mbIdx).word0, (s.ctl.mb s.mbIdx).word1⟩ old with
    | none => rw [hx] at hr; cases hr
    | some m =>
      rw [hx] at hr
      cases hr
      refine ⟨⟨h.idx, after_inv h.ctl _ (h.ctl.flag _ hf).1⟩, fun m' hm => ?_, rfl⟩
      cases hm
      exact (flexRead_zero hx).1
  · rw [if_neg hf] at hr
    cases hr
    exact ⟨⟨Nat.mod_lt _ (by omega), h.ctl⟩, fun m hm => (by cases hm), rfl⟩

theorem write_eq {s : State} (h : SInv s) (m : Msg) :
    writeMessage m s = if m.size = 0 then
        some (true, { s with ctl := { s.ctl with
          mb := fun j => if j = 15 then ⟨.txInactive, true, false, 0, packId m &&& 0x1FFFFFFF, 0, 0, false⟩ else s.ctl.mb j
          flag := fun j => if j = 15 then false else s.ctl.flag j
          sent := s.ctl.sent ++ [⟨true, false, packId m &&& 0x1FFFFFFF, 0, 0, 0⟩] } })
      else if 8 ≥ m.size.toNat then none else some (false, s) := by
  unfold writeMessage
  by_cases h0 : m.size = 0
  · rw [if_pos h0, if_pos (by rw [h0]; decide)]
    have : flexWrite m = some ⟨packId m &&& 0x1FFFFFFF, 0, 0, 0⟩ := by rw [flexWrite, h0, flexPack, dif_neg (by decide)]
    rw [this]
    unfold transferSendBlocking
    dsimp only
    rw [if_pos h.ctl.tx]
  · rw [if_neg h0, C69_write_violated m h0]

theorem write_inv {s : State} (h : SInv s) (m : Msg) {r : Bool × State} (hr : writeMessage m s = some r) : SInv r.2 := by
  rw [write_eq h] at hr
  by_cases h0 : m.size = 0
  · rw [if_pos h0] at hr
    cases hr
    refine ⟨h.idx, h.ctl.mg, h.ctl.m14, h.ctl.m15, fun j => ?_, fun j hj => ?_, fun j hj => ?_, ?_⟩
    · dsimp only
      by_cases hj : j = 15
      · rw [if_pos hj]
        exact ⟨fun hx => (by cases hx), fun hx => by omega⟩
      · rw [if_neg hj]
        exact h.ctl.rx j
    · dsimp only
      rw [if_neg (by omega)]
      exact h.ctl.id j hj
    · dsimp only at hj ⊢
      by_cases hj15 : j = 15
      · rw [if_pos hj15] at hj
        cases hj
      · rw [if_neg hj15] at hj ⊢
        exact h.ctl.flag j hj
    · dsimp only
      rw [if_pos rfl]
      exact fun h => (by cases h)
  · rw [if_neg h0] at hr
    split at hr
    · cases hr
    · cases hr
      exact h

theorem run_inv (l : List Move) : ∀ {s : State}, SInv s → ∀ {d s'}, run l s = some (d, s') → SInv s' ∧ ∀ m ∈ d, Zero m := by
  induction l with
  | nil =>
    intro s h d s' hr
    cases hr
    exact ⟨h, fun m hm => absurd hm List.not_mem_nil⟩
  | cons x l ih =>
    intro s h d s' hr
    cases x with
    | bus f => exact ih (s := { s with ctl := s.ctl.receive f }) ⟨h.idx, receive_inv h.ctl f⟩ hr
    | read old =>
      rw [run] at hr
      cases hx : readMessage old s with
      | none => rw [hx] at hr; cases hr
      | some r =>
        rw [hx] at hr
        dsimp only at hr
        obtain ⟨h1, h2, -⟩ := read_inv h old hx
        cases hy : run l r.2 with
        | none => rw [hy] at hr; cases hr
        | some q =>
          rw [hy] at hr
          cases hr
          obtain ⟨h3, h4⟩ := ih h1 hy
          refine ⟨h3, fun m hm => ?_⟩
          rw [List.mem_append] at hm
          cases hm with
          | inl hm => exact h2 m (Option.mem_toList.1 hm)
          | inr hm => exact h4 m hm
    | write m =>
      rw [run] at hr
      cases hx : writeMessage m s with
      | none => rw [hx] at hr; cases hr
      | some r =>
        rw [hx] at hr
        exact ih (write_inv h m hx) hr

theorem init_sinv (mb : Nat → Mb) : SInv ⟨0, init mb⟩ := ⟨by show 0 < 15; omega, init_inv mb⟩

/-! ### C92 -/

/-- **C92** does not hold: in every history behind the initialisation every event which is delivered has priority 0, class 0, type 0 and nickname 0. -/
theorem C92_deaf_violated (mb : Nat → Mb) (l : List Move) (d : List Msg) (s : State) (h : history mb l = some (d, s)) : ∀ m ∈ d, Zero m :=
  (run_inv l (init_sinv mb) h).2

/-- **C92** does not hold: behind every history a frame on the bus with any other identifier is ignored, nothing in the controller changes. -/
theorem C92_ignored_violated (mb : Nat → Mb) (l : List Move) (d : List Msg) (s : State) (h : history mb l = some (d, s)) (f : Frame) (hf : ident f ≠ 0) :
    s.ctl.receive f = s.ctl :=
  receive_other (run_inv l (init_sinv mb) h).1.ctl f hf

/-- The node does not hear the events on the bus. -/
theorem C92_violated (mb : Nat → Mb) : ¬ Hears mb := by
  intro h
  obtain ⟨n, d', s', hr, m', hm, hs⟩ := h [] [] _ rfl ⟨fun f hf => absurd hf List.not_mem_nil, fun f hf => absurd hf List.not_mem_nil⟩
    ⟨0, 20, 9, 1, false, 0, Vector.replicate 8 0⟩ ⟨0, 20, 9, 1, false, 0, Vector.replicate 8 0⟩ (by unfold Fits; decide) rfl
  have hz := C92_deaf_violated mb _ d' s' hr m' hm
  have h1 := hz.2.2.1
  rw [hs.2.2.1] at h1
  exact absurd h1 (by decide)

/-! #### What does work -/

/-- No frame in a buffer has data. -/
def Bare (c : Ctl) : Prop := ∀ k, c.flag k = true → (c.mb k).dlc = 0

theorem flexRead_bare (w0 w1 : U32) (old : Msg) : ∃ m, flexRead ⟨0, 0, w0, w1⟩ old = some m := by
  unfold flexRead
  rw [flexUnpack, dif_neg (by show ¬ 0 < 0; omega)]
  exact ⟨_, rfl⟩

theorem receive_bare {c : Ctl} (h : Inv c) (hb : Bare c) (f : Frame) (hf : f.dlc = 0) : Bare (c.receive f) := by
  by_cases hz : ident f = 0
  · obtain ⟨k, code, hk, hc, hr⟩ := receive_zero h f hz
    rw [hr]
    intro j hj
    unfold Ctl.store at hj ⊢
    dsimp only at hj ⊢
    by_cases hjk : j = k
    · rw [if_pos hjk]
      exact hf
    · rw [if_neg hjk] at hj ⊢
      exact hb j hj
  · rw [receive_other h f hz]
    exact hb

/-- Reading in a state without data: it is defined; either the buffer of the position holds a frame, which is delivered, or the position moves. -/
theorem read_bare {s : State} (h : SInv s) (hb : Bare s.ctl) (old : Msg) :
    ∃ r, readMessage old s = some r ∧ Bare r.2.ctl ∧
      (s.ctl.flag s.mbIdx = true → ∃ m, r.1 = some m ∧ m.size = 0) ∧
      (s.ctl.flag s.mbIdx = false → r = (none, { s with mbIdx := (s.mbIdx + 1) % 15 })) := by
  rw [read_eq h]
  by_cases hf : s.ctl.flag s.mbIdx = true
  · rw [if_pos hf, hb _ hf]
    obtain ⟨m, hm⟩ := flexRead_bare (s.ctl.mb s.mbIdx).word0 (s.ctl.mb s.mbIdx).word1 old
    rw [hm]
    refine ⟨_, rfl, fun j hj => ?_, fun _ => ⟨m, rfl, (flexRead_zero hm).2⟩, fun hx => by rw [hf] at hx; cases hx⟩
    unfold after at hj ⊢
    dsimp only at hj ⊢
    by_cases hjk : j = s.mbIdx
    · rw [if_pos hjk] at hj
      cases hj
    · rw [if_neg hjk] at hj ⊢
      exact hb j hj
  · rw [if_neg hf]
    exact ⟨_, rfl, hb, fun hx => absurd hx hf, fun _ => rfl⟩

/-- Without data the behaviour is defined. -/
theorem run_plain (l : List Move) : ∀ {s : State}, SInv s → Bare s.ctl → Plain l → ∃ d s', run l s = some (d, s') ∧ Bare s'.ctl := by
  induction l with
  | nil => exact fun {s} _ hb _ => ⟨[], s, rfl, hb⟩
  | cons x l ih =>
    intro s h hb hp
    cases x with
    | bus f =>
      refine ih (s := { s with ctl := s.ctl.receive f }) ⟨h.idx, receive_inv h.ctl f⟩
        (receive_bare h.ctl hb f (hp.1 f List.mem_cons_self)) ⟨fun g hg => hp.1 g (List.mem_cons_of_mem _ hg), hp.2⟩
    | read old =>
      obtain ⟨r, hr, hb', -⟩ := read_bare h hb old
      obtain ⟨d, s', hd, hs'⟩ := ih (read_inv h old hr).1 hb' hp
      rw [run, hr]
      dsimp only
      rw [hd]
      exact ⟨_, _, rfl, hs'⟩
    | write m =>
      have h0 := hp.2 m List.mem_cons_self
      have hw := write_eq h m
      rw [if_pos h0] at hw
      rw [run, hw]
      refine ih (write_inv h m hw) (fun k hk => ?_) ⟨hp.1, fun g hg => hp.2 g (List.mem_cons_of_mem _ hg)⟩
      dsimp only at hk ⊢
      by_cases hj : k = 15
      · rw [if_pos hj] at hk
        cases hk
      · rw [if_neg hj] at hk ⊢
        exact hb k hk

/-- A frame in buffer `j` and more reads than there are positions in front of it: an event is delivered. -/
theorem reads_deliver (old : Msg) (j : Nat) (hj : j < 15) : ∀ n N {s : State}, n ≤ N → SInv s → Bare s.ctl → s.ctl.flag j = true →
    (s.mbIdx + n) % 15 = j → ∃ d s', run (List.replicate (N + 1) (.read old)) s = some (d, s') ∧ ∃ m ∈ d, m.size = 0 := by
  have step : ∀ n {s : State}, SInv s → Bare s.ctl → s.ctl.flag s.mbIdx = true →
      ∃ d s', run (List.replicate (n + 1) (.read old)) s = some (d, s') ∧ ∃ m ∈ d, m.size = 0 := by
    intro n s h hb hf
    obtain ⟨r, hr, hb', hd, -⟩ := read_bare h hb old
    obtain ⟨m, hm, h0⟩ := hd hf
    have hpl : Plain (List.replicate n (.read old)) := by
      have h1 : ∀ k, frames (List.replicate k (.read old)) = [] := fun k => by
        induction k with
        | zero => rfl
        | succ k ih => exact ih
      have h2 : ∀ k, writes (List.replicate k (.read old)) = [] := fun k => by
        induction k with
        | zero => rfl
        | succ k ih => exact ih
      refine ⟨fun f hf => ?_, fun f hf => ?_⟩
      · rw [h1] at hf
        cases hf
      · rw [h2] at hf
        cases hf
    obtain ⟨d, s', hx, -⟩ := run_plain (List.replicate n (.read old)) (read_inv h old hr).1 hb' hpl
    rw [List.replicate_succ, run, hr]
    dsimp only
    rw [hx]
    refine ⟨_, _, rfl, m, ?_, h0⟩
    rw [hm]
    exact List.mem_append_left _ (Option.mem_toList.2 rfl)
  intro n
  induction n with
  | zero =>
    intro N s _ h hb hf hp
    have : s.mbIdx = j := by have := h.idx; omega
    exact step N h hb (this ▸ hf)
  | succ n ih =>
    intro N s hN h hb hf hp
    cases hx : s.ctl.flag s.mbIdx with
    | true => exact step N h hb hx
    | false =>
      obtain ⟨r, hr, hb', -, hno⟩ := read_bare h hb old
      have hrr := hno hx
      subst hrr
      obtain ⟨N, rfl⟩ : ∃ N', N = N' + 1 := ⟨N - 1, by omega⟩
      obtain ⟨d, s', hd, m, hm, h0⟩ := ih N (by omega) (read_inv h old hr).1 hb' hf (by show ((s.mbIdx + 1) % 15 + n) % 15 = j; omega)
      rw [List.replicate_succ, run, hr]
      dsimp only
      rw [hd]
      exact ⟨_, _, rfl, m, hm, h0⟩

/-- **C92**, partial: behind a history without data, a frame without data and with identifier 0 leads to an event with identifier 0 and no data within
15 calls of the read function.  Missing: all other identifiers and all frames with data. -/
theorem C92_partial (mb : Nat → Mb) (l : List Move) (d : List Msg) (s : State) (h : history mb l = some (d, s)) (hp : Plain l)
    (f : Frame) (hf : ident f = 0) (h0 : f.dlc = 0) (old : Msg) :
    ∃ d' s', run (.bus f :: List.replicate 15 (.read old)) s = some (d', s') ∧ ∃ m ∈ d', Zero m ∧ m.size = 0 := by
  obtain ⟨d0, s0, hr, hb⟩ := run_plain l (init_sinv mb) (fun k hk => absurd ((init_inv mb).flag k hk) (by
    rw [show (init mb).flag k = false from congrFun (initRx_rest 15 (initCtl mb)).2.2.2.1 k] at hk; cases hk)) hp
  obtain ⟨rfl, rfl⟩ : d = d0 ∧ s = s0 := by
    have := h.symm.trans hr
    cases this
    exact ⟨rfl, rfl⟩
  obtain ⟨hs, -⟩ := run_inv l (init_sinv mb) h
  obtain ⟨k, code, hk, hc, he⟩ := receive_zero hs.ctl f hf
  have hi : SInv { s with ctl := s.ctl.receive f } := ⟨hs.idx, receive_inv hs.ctl f⟩
  have hflag : (s.ctl.receive f).flag k = true := by
    rw [he]
    show (if k = k then true else _) = true
    rw [if_pos rfl]
  have hx := hs.idx
  obtain ⟨d', s', hd, m, hm, hm0⟩ := reads_deliver old k (by omega) ((k + 15 - s.mbIdx) % 15) 14 (by omega) hi (receive_bare hs.ctl hb f h0) hflag
    (by show (s.mbIdx + _) % 15 = k; omega)
  exact ⟨d', s', hd, m, hm, (run_inv _ hi hd).2 m hm, hm0⟩

example : ident ⟨true, false, 0, 0, 0, 0⟩ = 0 ∧ ident (frameOf ⟨0, 20, 9, 1, false, 0, Vector.replicate 8 0⟩) ≠ 0 := by decide

/-- The histories of the theorems are met: a frame with identifier 0 arrives, the node sends an event. -/
example : (history (fun _ => ⟨.inactive, false, false, 0, 77, 1, 2, false⟩)
    [.bus ⟨true, false, 0, 0, 0, 0⟩, .bus ⟨true, false, 5, 0, 0, 0⟩, .read default, .write ⟨0, 20, 9, 1, false, 0, Vector.replicate 8 0⟩, .read default]).map
      (fun r => (r.1.length, r.2.ctl.sent.length, r.2.mbIdx)) = some (1, 1, 1) := by decide +kernel

/-- The events of the node on the bus. -/
theorem run_sent (l : List Move) : ∀ {s : State}, SInv s → ∀ {d s'}, run l s = some (d, s') → (∀ m ∈ writes l, Fits m) →
    s'.ctl.sent = s.ctl.sent ++ (writes l).map frameOf := by
  induction l with
  | nil =>
    intro s h d s' hr _
    cases hr
    exact (List.append_nil _).symm
  | cons x l ih =>
    intro s h d s' hr hw
    cases x with
    | bus f =>
      have := ih (s := { s with ctl := s.ctl.receive f }) ⟨h.idx, receive_inv h.ctl f⟩ hr hw
      rw [this]
      show (s.ctl.receive f).sent ++ _ = _
      rw [receive_sent]
      rfl
    | read old =>
      rw [run] at hr
      cases hx : readMessage old s with
      | none => rw [hx] at hr; cases hr
      | some r =>
        rw [hx] at hr
        dsimp only at hr
        obtain ⟨h1, -, h2⟩ := read_inv h old hx
        cases hy : run l r.2 with
        | none => rw [hy] at hr; cases hr
        | some q =>
          rw [hy] at hr
          cases hr
          rw [ih h1 hy hw, h2]
          rfl
    | write m =>
      rw [run] at hr
      cases hx : writeMessage m s with
      | none => rw [hx] at hr; cases hr
      | some r =>
        rw [hx] at hr
        rw [ih (write_inv h m hx) hr (fun g hg => hw g (List.mem_cons_of_mem _ hg))]
        obtain ⟨hp, hc, h8⟩ := hw m List.mem_cons_self
        rw [write_eq h] at hx
        by_cases h0 : m.size = 0
        · rw [if_pos h0] at hx
          cases hx
          have hid : packId m &&& 0x1FFFFFFF = BitVec.ofNat 32 (canId m) := by
            have hlt := canId_lt m hp hc
            apply BitVec.eq_of_toNat_eq
            rw [BitVec.toNat_and, packId_toNat m hp hc, show (0x1FFFFFFF : U32).toNat = 2 ^ 29 - 1 from rfl, and_low, BitVec.toNat_ofNat]
            omega
          rw [writes, List.map_cons, frameOf, ← hid, List.append_assoc]
          rfl
        · rw [if_neg h0, if_pos h8] at hx
          cases hx

/-- **C92**: in every history in which the behaviour is defined, the frames on the bus from the node are those of its events, each once, in order. -/
theorem C92_send (mb : Nat → Mb) (l : List Move) (d : List Msg) (s : State) (h : history mb l = some (d, s)) (hw : ∀ m ∈ writes l, Fits m) :
    s.ctl.sent = (writes l).map frameOf := by
  rw [run_sent l (init_sinv mb) h hw, show (init mb).sent = [] from (initRx_rest 15 (initCtl mb)).2.2.2.2]
  rfl

/-- **C92**: a history in which neither the frames on the bus nor the events of the node carry data is defined. -/
theorem C92_defined (mb : Nat → Mb) (l : List Move) (hp : Plain l) : ∃ d s, history mb l = some (d, s) := by
  obtain ⟨d, s, hr, -⟩ := run_plain l (init_sinv mb) (fun k hk => by
    rw [show (init mb).flag k = false from congrFun (initRx_rest 15 (initCtl mb)).2.2.2.1 k] at hk; cases hk) hp
  exact ⟨d, s, hr⟩

/-! #### No event is invented -/

/-- Number of buffers with a frame not yet read. -/
def pending (c : Ctl) : Nat := (List.range 14).countP c.flag

theorem countP_set (p : Nat → Bool) (k : Nat) (b : Bool) (n : Nat) :
    (List.range n).countP (fun j => if j = k then b else p j) + (if k < n ∧ p k = true then 1 else 0)
      = (List.range n).countP p + (if k < n ∧ b = true then 1 else 0) := by
  induction n with
  | zero => simp
  | succ n ih =>
    rw [List.range_succ, List.countP_append, List.countP_append, List.countP_singleton, List.countP_singleton]
    by_cases hk : k = n
    · subst hk
      have h1 : ¬ k < k := by omega
      have h2 : k < k + 1 := by omega
      simp only [h1, false_and, if_false, Nat.add_zero] at ih
      simp only [h2, true_and, if_true]
      rw [ih]
      omega
    · have hn : ¬ n = k := fun h => hk h.symm
      have : k < n ↔ k < n + 1 := by omega
      simp only [hn, if_false, ← this]
      omega

theorem receive_pending {c : Ctl} (h : Inv c) (f : Frame) : pending (c.receive f) ≤ pending c + (if ident f = 0 then 1 else 0) := by
  by_cases hf : ident f = 0
  · obtain ⟨k, code, hk, hc, hr⟩ := receive_zero h f hf
    rw [hr, if_pos hf]
    have := countP_set c.flag k true 14
    unfold pending Ctl.store
    dsimp only
    split at this <;> split at this <;> omega
  · rw [receive_other h f hf, if_neg hf]
    exact Nat.le_refl _

theorem run_count (l : List Move) : ∀ {s : State}, SInv s → ∀ {d s'}, run l s = some (d, s') →
    d.length + pending s'.ctl ≤ pending s.ctl + (frames l).countP (fun f => ident f == 0) := by
  induction l with
  | nil =>
    intro s h d s' hr
    cases hr
    show 0 + _ ≤ _ + 0
    omega
  | cons x l ih =>
    intro s h d s' hr
    cases x with
    | bus f =>
      have h1 := ih (s := { s with ctl := s.ctl.receive f }) ⟨h.idx, receive_inv h.ctl f⟩ hr
      have h2 := receive_pending h.ctl f
      dsimp only at h1
      rw [frames, List.countP_cons]
      simp only [beq_iff_eq]
      omega
    | read old =>
      rw [run] at hr
      cases hx : readMessage old s with
      | none => rw [hx] at hr; cases hr
      | some r =>
        rw [hx] at hr
        dsimp only at hr
        obtain ⟨h1, -, -⟩ := read_inv h old hx
        cases hy : run l r.2 with
        | none => rw [hy] at hr; cases hr
        | some q =>
          rw [hy] at hr
          cases hr
          have h3 := ih h1 hy
          have h4 : r.1.toList.length + pending r.2.ctl = pending s.ctl := by
            rw [read_eq h] at hx
            by_cases hf : s.ctl.flag s.mbIdx = true
            · rw [if_pos hf] at hx
              cases hu : flexRead ⟨0, (s.ctl.mb s.mbIdx).dlc, (s.ctl.mb s.mbIdx).word0, (s.ctl.mb s.mbIdx).word1⟩ old with
              | none => rw [hu] at hx; cases hx
              | some m =>
                rw [hu] at hx
                cases hx
                have hk := (h.ctl.flag _ hf).1
                have h5 := countP_set s.ctl.flag s.mbIdx false 14
                rw [if_pos ⟨hk, hf⟩, if_neg (fun h => (by cases h.2))] at h5
                show 1 + pending (after s.ctl s.mbIdx) = _
                unfold pending after
                dsimp only
                omega
            · rw [if_neg hf] at hx
              cases hx
              exact Nat.zero_add _
          rw [List.length_append]
          show _ ≤ _ + (frames l).countP _
          omega
    | write m =>
      rw [run] at hr
      cases hx : writeMessage m s with
      | none => rw [hx] at hr; cases hr
      | some r =>
        rw [hx] at hr
        have h3 := ih (write_inv h m hx) hr
        have h4 : pending r.2.ctl = pending s.ctl := by
          rw [write_eq h] at hx
          by_cases h0 : m.size = 0
          · rw [if_pos h0] at hx
            cases hx
            have h5 := countP_set s.ctl.flag 15 false 14
            rw [if_neg (fun h => absurd h.1 (by decide)), if_neg (fun h => absurd h.1 (by decide))] at h5
            exact h5
          · rw [if_neg h0] at hx
            split at hx
            · cases hx
            · cases hx
              rfl
        rw [h4] at h3
        exact h3

/-- **C92**: no event is invented or delivered twice: there are not more events than frames with identifier 0 on the bus. -/
theorem C92_no_invented (mb : Nat → Mb) (l : List Move) (d : List Msg) (s : State) (h : history mb l = some (d, s)) :
    d.length ≤ (frames l).countP (fun f => ident f == 0) := by
  have h1 := run_count l (init_sinv mb) h
  have h2 : pending (init mb) = 0 := by
    unfold pending
    rw [show (init mb).flag = fun _ => false from (initRx_rest 15 (initCtl mb)).2.2.2.1]
    rfl
  dsimp only at h1
  omega

end Vscp.FlexProps
