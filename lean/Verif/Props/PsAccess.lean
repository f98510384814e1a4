/-
C80: access to the persistent memory in the examples.
-/
import Verif.Spec.PsAccess
import Verif.Model.Ps

namespace Vscp.PsAccessProps
open Vscp.Driver.PsAccess Vscp.Spec.PsAccess

/-- The driver with state `s` holds the array `m` in its first `k` bytes, `R` being the invariant of the driver. -/
structure Sim (rd : U16 → σ → U8 × σ) (wr : U16 → U8 → σ → σ) (k : Nat) (R : σ → (Nat → U8) → Prop) : Prop where
  read : ∀ s m a, R s m → a.toNat < k → (rd a s).1 = m a.toNat ∧ R (rd a s).2 m
  write : ∀ s m a v, R s m → a.toNat < k → R (wr a v s) (fun x => if x = a.toNat then v else m x)

theorem addr_add (a : U16) (i : Nat) (k : Nat) (hk : k ≤ 65536) (h : a.toNat + i < k) : (a + BitVec.ofNat 16 i).toNat = a.toNat + i := by
  rw [BitVec.toNat_add, BitVec.toNat_ofNat]; omega

theorem Sim.readLoop {rd : U16 → σ → U8 × σ} {wr : U16 → U8 → σ → σ} {k : Nat} {R : σ → (Nat → U8) → Prop} (h : Sim rd wr k R) (hk : k ≤ 65536) (a : U16) (m : Nat → U8) :
    ∀ (n i : Nat) (s : σ), R s m → a.toNat + i + n ≤ k →
      (readLoop rd a i n s).1 = (List.range n).map (fun j => m (a.toNat + i + j)) ∧ R (Driver.PsAccess.readLoop rd a i n s).2 m
  | 0, i, s, hR, _ => ⟨rfl, hR⟩
  | n + 1, i, s, hR, hn => by
    have ea := addr_add a i k hk (by omega)
    obtain ⟨r1, r2⟩ := h.read s m (a + BitVec.ofNat 16 i) hR (by omega)
    obtain ⟨q1, q2⟩ := Sim.readLoop h hk a m n (i + 1) _ r2 (by omega)
    refine ⟨?_, q2⟩
    simp only [Driver.PsAccess.readLoop, q1, r1, ea, List.range_succ_eq_map, List.map_cons, List.map_map, Nat.add_zero, List.cons.injEq, true_and]
    apply List.map_congr_left
    intro j _
    simp only [Function.comp]
    congr 1
    omega

theorem Sim.writeLoop {rd : U16 → σ → U8 × σ} {wr : U16 → U8 → σ → σ} {k : Nat} {R : σ → (Nat → U8) → Prop} (h : Sim rd wr k R) (hk : k ≤ 65536) (a : U16) :
    ∀ (bs : List U8) (i : Nat) (s : σ) (m : Nat → U8), R s m → a.toNat + i + bs.length ≤ k →
      R (writeLoop wr a i bs s) (fun x => if h : a.toNat + i ≤ x ∧ x - (a.toNat + i) < bs.length then bs[x - (a.toNat + i)] else m x)
  | [], i, s, m, hR, _ => by
    have : (fun x => if h : a.toNat + i ≤ x ∧ x - (a.toNat + i) < ([] : List U8).length then ([] : List U8)[x - (a.toNat + i)] else m x) = m := by
      funext x; rw [dif_neg (by simp)]
    rw [this]; exact hR
  | b :: bs, i, s, m, hR, hn => by
    simp only [List.length_cons] at hn
    have ea := addr_add a i k hk (by omega)
    have hw := h.write s m (a + BitVec.ofNat 16 i) b hR (by omega)
    rw [ea] at hw
    have q := Sim.writeLoop h hk a bs (i + 1) _ _ hw (by omega)
    refine Eq.mp (congrArg _ ?_) q
    funext x
    by_cases h1 : x = a.toNat + i
    · subst h1
      rw [dif_neg (by omega), if_pos rfl, dif_pos (by simp)]
      simp
    · by_cases h2 : a.toNat + i ≤ x ∧ x - (a.toNat + i) < bs.length + 1
      · rw [dif_pos (by omega), dif_pos (by simpa using h2)]
        rw [List.getElem_cons, dif_neg (by omega)]
        congr 1
      · rw [dif_neg (by omega), if_neg h1, dif_neg (by simpa using h2)]

theorem Sim.acc {rd : U16 → σ → U8 × σ} {wr : U16 → U8 → σ → σ} {k : Nat} {R : σ → (Nat → U8) → Prop} (h : Sim rd wr k R) (hk : k ≤ 65536) (c : Acc) (s : σ) (m : Nat → U8)
    (hR : R s m) (hc : c.inside k) : ∃ s', c.exec rd wr s = some ((c.spec m).1, s') ∧ R s' (c.spec m).2 := by
  cases c with
  | w8 a v => exact ⟨_, rfl, h.write s m a v hR hc⟩
  | r8 a =>
    obtain ⟨r1, r2⟩ := h.read s m a hR hc
    exact ⟨_, by simp only [Acc.exec, Acc.spec, r1], r2⟩
  | wN a bs =>
    obtain ⟨h1, h2⟩ := hc
    have e : (BitVec.ofNat 8 bs.length).toNat = bs.length := by rw [BitVec.toNat_ofNat]; omega
    simp only [Acc.exec, Acc.spec, writeMultiple, e]
    have q := Sim.writeLoop h hk a bs 0 s m hR (by omega)
    by_cases h0 : 0 < bs.length
    · rw [if_pos h0, if_pos (Nat.le_refl _), List.take_length]
      exact ⟨_, rfl, q⟩
    · rw [if_neg h0]
      have : bs = [] := List.length_eq_zero_iff.1 (by omega)
      subst this
      exact ⟨s, rfl, q⟩
  | rN a n =>
    obtain ⟨h1, h2⟩ := hc
    have e : (BitVec.ofNat 8 n).toNat = n := by rw [BitVec.toNat_ofNat]; omega
    simp only [Acc.exec, Acc.spec, readMultiple, e, List.length_replicate]
    obtain ⟨q1, q2⟩ := Sim.readLoop h hk a m n 0 s hR (by omega)
    by_cases h0 : 0 < n
    · rw [if_pos h0, if_pos (Nat.le_refl _)]
      refine ⟨_, ?_, q2⟩
      simp [q1]
    · rw [if_neg h0]
      have : n = 0 := by omega
      subst this
      exact ⟨s, rfl, hR⟩

theorem Sim.exec {rd : U16 → σ → U8 × σ} {wr : U16 → U8 → σ → σ} {k : Nat} {R : σ → (Nat → U8) → Prop} (h : Sim rd wr k R) (hk : k ≤ 65536) :
    ∀ (l : List Acc) (s : σ) (m : Nat → U8), R s m → (∀ c ∈ l, c.inside k) → exec rd wr l s = some (spec l m)
  | [], _, _, _, _ => rfl
  | c :: l, s, m, hR, hl => by
    obtain ⟨s', a1, a2⟩ := h.acc hk c s m hR (hl c (List.mem_cons_self ..))
    simp only [Spec.PsAccess.exec, a1, Option.bind_some, Sim.exec h hk l s' _ a2 (fun c hc => hl c (List.mem_cons_of_mem _ hc)), Option.map_some, spec]

/-! ### AVR -/

theorem avr_sim : Sim Avr.read8 Avr.write8 4096 (fun s m => ∀ a, a < 4096 → s (BitVec.ofNat 12 a) = m a) := by
  have e : ∀ a : U16, a.toNat < 4096 → a.setWidth 12 = BitVec.ofNat 12 a.toNat := by
    intro a _
    apply BitVec.eq_of_toNat_eq
    rw [BitVec.toNat_setWidth, BitVec.toNat_ofNat]
  constructor
  · intro s m a h ha
    refine ⟨?_, h⟩
    simp only [Avr.read8]
    rw [e a ha]
    exact h _ ha
  · intro s m a v h ha b hb
    simp only [Avr.write8]
    rw [e a ha]
    by_cases hab : b = a.toNat
    · rw [if_pos (by rw [hab]), if_pos hab]
    · rw [if_neg, if_neg hab]
      · exact h b hb
      · intro hh
        have := congrArg BitVec.toNat hh
        rw [BitVec.toNat_ofNat, BitVec.toNat_ofNat] at this
        omega

/-- C80 (AVR): in every history of accesses inside of the EEPROM, each access reads what was written last. -/
theorem C80_avr (l : List Acc) (s : Avr) (hl : ∀ c ∈ l, c.inside 4096) :
    exec Avr.read8 Avr.write8 l s = some (spec l fun a => s (BitVec.ofNat 12 a)) :=
  avr_sim.exec (by decide) l s _ (fun _ _ => rfl) hl

/-- C80: the persistent memory of the model of the framework is this array: reading and writing there is the access of the specification. -/
theorem C80_core (w : W) (a : U16) (v : U8) (bs : List U8) (n : Nat) :
    ((psRead8 a.toNat w).1 = (Acc.r8 a |>.spec w.ps).1[0]'(by simp [Acc.spec])) ∧ (psWrite8 a.toNat v w).2.ps = (Acc.w8 a v |>.spec w.ps).2 ∧
      (psReadMultiple a.toNat n w).1 = (Acc.rN a n |>.spec w.ps).1 ∧ (psWriteMultiple a.toNat bs w).2.ps = (Acc.wN a bs |>.spec w.ps).2 := by
  refine ⟨rfl, rfl, rfl, ?_⟩
  suffices H : ∀ (bs : List U8) (k : Nat) (w : W), (psWriteMultiple k bs w).2.ps = fun x => if h : k ≤ x ∧ x - k < bs.length then bs[x - k] else w.ps x from H bs a.toNat w
  intro bs
  induction bs with
  | nil => intro k w; funext x; rw [dif_neg (by simp)]; rfl
  | cons b bs ih =>
    intro k w
    have e : psWriteMultiple k (b :: bs) w = psWriteMultiple (k + 1) bs (psWrite8 k b w).2 := rfl
    rw [e, ih]
    funext x
    simp only [psWrite8_run]
    by_cases h1 : x = k
    · subst h1
      rw [dif_neg (by omega), if_pos rfl, dif_pos (by simp)]
      simp
    · by_cases h2 : k ≤ x ∧ x - k < bs.length + 1
      · rw [dif_pos (by omega), dif_pos (by simpa using h2)]
        rw [List.getElem_cons, dif_neg (by omega)]
        congr 1
      · rw [dif_neg (by omega), if_neg h1, dif_neg (by simpa using h2)]

/-! ### ARM -/

theorem arm_addr (a : U16) (h : a.toNat < 256) : (a.setWidth 8 : U8) = BitVec.ofNat 8 a.toNat := by
  apply BitVec.eq_of_toNat_eq
  rw [BitVec.toNat_setWidth, BitVec.toNat_ofNat]

theorem arm_sim (e : Chip) (k : Nat) (hk : k ≤ 256) (hf : ∀ n, e.fin n = true) (hp : ∀ a : Nat, a < k → e.prot (BitVec.ofNat 8 a) = false) :
    Sim (Arm.read8 e) (Arm.write8 e) k (fun s m => ∀ a, a < k → s.mem (BitVec.ofNat 8 a) = m a) := by
  constructor
  · intro s m a h ha
    unfold Arm.read8
    rw [if_pos (by omega), arm_addr a (by omega)]
    unfold transfer
    rw [hf]
    cases hb : s.busy <;> simp [hb] <;> exact ⟨h _ ha, h⟩
  · intro s m a v h ha b hb'
    unfold Arm.write8
    rw [if_pos (by omega), arm_addr a (by omega)]
    have hp' := hp a.toNat ha
    have key : ((transfer e [0x02, BitVec.ofNat 8 a.toNat, v] (transfer e [0x06] s).2).2).mem = fun x => if x = BitVec.ofNat 8 a.toNat then v else s.mem x := by
      generalize BitVec.ofNat 8 a.toNat = c at hp'
      unfold transfer
      simp only [hf]
      cases hb : s.busy <;> simp [hb, hp']
    simp only [key]
    by_cases hab : b = a.toNat
    · rw [if_pos (by rw [hab]), if_pos hab]
    · rw [if_neg, if_neg hab]
      · exact h b hb'
      · intro hh
        have := congrArg BitVec.toNat hh
        rw [BitVec.toNat_ofNat, BitVec.toNat_ofNat] at this
        omega

/-- C80 (ARM, part): if every write cycle ends in front of the next transfer, each access inside of the bytes which are not protected reads what was written last.
Missing: accesses during a write cycle, see `C80_busy_violated`, and addresses above 0xFF, see `C80_range_violated`. -/
theorem C80_arm_partial (e : Chip) (k : Nat) (hk : k ≤ 256) (hf : ∀ n, e.fin n = true) (hp : ∀ a : Nat, a < k → e.prot (BitVec.ofNat 8 a) = false) (l : List Acc) (s : Arm)
    (hl : ∀ c ∈ l, c.inside k) : exec (Arm.read8 e) (Arm.write8 e) l s = some (spec l fun a => s.mem (BitVec.ofNat 8 a)) :=
  (arm_sim e k hk hf hp).exec (by omega) l s _ (fun _ _ => rfl) hl

/-- While a write cycle runs, nothing is written. -/
theorem arm_stuck (e : Chip) (a : U16) : ∀ (bs : List U8) (i : Nat) (s : Arm), s.busy = true → (∀ n, s.n ≤ n → n < s.n + 2 * bs.length → e.fin n = false) →
    (writeLoop (Arm.write8 e) a i bs s).mem = s.mem ∧ (writeLoop (Arm.write8 e) a i bs s).busy = true ∧ (writeLoop (Arm.write8 e) a i bs s).n ≤ s.n + 2 * bs.length
  | [], _, s, hb, _ => ⟨rfl, hb, Nat.le_refl _⟩
  | b :: bs, i, s, hb, hf => by
    simp only [List.length_cons] at hf
    have h0 := hf s.n (by omega) (by omega)
    have h1 := hf (s.n + 1) (by omega) (by omega)
    have key : (Arm.write8 e (a + BitVec.ofNat 16 i) b s).mem = s.mem ∧ (Arm.write8 e (a + BitVec.ofNat 16 i) b s).busy = true ∧
        s.n ≤ (Arm.write8 e (a + BitVec.ofNat 16 i) b s).n ∧ (Arm.write8 e (a + BitVec.ofNat 16 i) b s).n ≤ s.n + 2 := by
      unfold Arm.write8
      split
      · simp [transfer, hb, h0, h1]
        omega
      · exact ⟨rfl, hb, by omega, by omega⟩
    obtain ⟨k1, k2, k3, k4⟩ := key
    obtain ⟨q1, q2, q3⟩ := arm_stuck e a bs (i + 1) _ k2 (fun n hn hn' => hf n (by omega) (by omega))
    refine ⟨q1.trans k1, q2, ?_⟩
    simp only [writeLoop, List.length_cons]
    omega

/-- C80 (ARM) does not hold: the write access does not wait for the end of the write cycle: if it is still running during the call, of all bytes which are written by one call only
the first one arrives; and what is read meanwhile is not what is in the memory. -/
theorem C80_busy_violated (e : Chip) (s : Arm) (hs : s.busy = false) (a : U16) (ha : a.toNat ≤ 0xFF) (hp : e.prot (a.setWidth 8) = false) (b : U8) (bs : List U8) (hl : bs.length < 255)
    (hf : ∀ n, n ≤ s.n + 2 * (bs.length + 2) → e.fin n = false) :
    ∃ s', writeMultiple (Arm.write8 e) a (some (b :: bs)) (BitVec.ofNat 8 (bs.length + 1)) s = some s' ∧ s'.mem = (fun x => if x = a.setWidth 8 then b else s.mem x) ∧
      ∃ n, (Arm.read8 e a s').1 = e.junk n := by
  have e1 : (BitVec.ofNat 8 (bs.length + 1)).toNat = bs.length + 1 := by rw [BitVec.toNat_ofNat]; omega
  have f0 := hf s.n (by omega)
  have e2 : a + BitVec.ofNat 16 0 = a := by simp
  have key : Arm.write8 e a b s = { mem := fun x => if x = a.setWidth 8 then b else s.mem x, wel := true, busy := true, n := s.n + 2 } := by
    unfold Arm.write8
    rw [if_pos ha]
    simp [transfer, hs, hp]
  simp only [writeMultiple, e1, List.length_cons, if_pos (Nat.succ_pos _), if_pos (Nat.le_refl _)]
  refine ⟨_, rfl, ?_⟩
  rw [List.take_of_length_le (by simp)]
  simp only [writeLoop, e2, key]
  obtain ⟨q1, q2, q3⟩ := arm_stuck e a bs (0 + 1) { mem := fun x => if x = a.setWidth 8 then b else s.mem x, wel := true, busy := true, n := s.n + 2 } rfl
    (fun n _ hn => hf n (by dsimp only at hn; omega))
  refine ⟨q1, ?_⟩
  generalize writeLoop (Arm.write8 e) a (0 + 1) bs { mem := fun x => if x = a.setWidth 8 then b else s.mem x, wel := true, busy := true, n := s.n + 2 } = t at q1 q2 q3
  dsimp only at q3
  refine ⟨t.n, ?_⟩
  unfold Arm.read8
  rw [if_pos ha]
  simp [transfer, q2, hf t.n (by omega)]

/-- C80 (ARM) does not hold: an address above 0xFF is not written, and is read as 0. -/
theorem C80_range_violated (e : Chip) (s : Arm) (a : U16) (ha : 0xFF < a.toNat) (v : U8) : Arm.write8 e a v s = s ∧ Arm.read8 e a s = (0, s) := by
  unfold Arm.write8 Arm.read8
  rw [if_neg (by omega), if_neg (by omega)]
  exact ⟨rfl, rfl⟩

/-! ### Witnesses -/

/-- The hypotheses are met: a history with all kinds of accesses. -/
def story : List Acc := [.w8 5 7, .wN 10 [1, 2, 3], .r8 5, .rN 9 4, .wN 11 [9], .rN 10 3]

example : ∀ c ∈ story, c.inside 192 := by
  intro c h
  simp only [story, List.mem_cons, List.not_mem_nil, or_false] at h
  rcases h with rfl | rfl | rfl | rfl | rfl | rfl <;> simp [Acc.inside]

/-- The persistent data of the ARM example: no device data in the persistent memory, decision matrix with 10 rows, no logger: all of it is inside of the bytes which are not protected. -/
theorem C80_layout (c : Cfg) (h1 : c.guidPs = false) (h2 : c.zonePs = false) (h3 : c.subZonePs = false) (h4 : c.manuPs = false) (h5 : c.manuSubPs = false) (h6 : c.mdfPs = false)
    (h7 : c.famPs = false) (h8 : c.typePs = false) (h9 : c.logger = false) (h10 : c.dmRows = 10) (h11 : c.dmExt = false) (h12 : c.dmNg = false) : Ps.addrNext c ≤ 0xC0 := by
  simp only [Ps.addrNext, Ps.addrDmNg, Ps.addrDmExt, Ps.addrDm, Ps.addrLogId, Ps.addrType, Ps.addrFam, Ps.addrMdf, Ps.addrManuSub, Ps.addrManu, Ps.addrSubZone, Ps.addrZone, Ps.addrGuid,
    Ps.addrUserId, Ps.addrFlags, Ps.addrSegCrc, Ps.addrNickname, Ps.addrBootFlag, Ps.sizeBootFlag, Ps.sizeNickname, Ps.sizeSegCrc, Ps.sizeFlags, Ps.sizeUserId, Ps.sizeGuid, Ps.sizeZone,
    Ps.sizeSubZone, Ps.sizeManu, Ps.sizeManuSub, Ps.sizeMdf, Ps.sizeFam, Ps.sizeType, Ps.sizeLogId, Ps.sizeDm, Ps.sizeDmExt, Ps.sizeDmNg, h1, h2, h3, h4, h5, h6, h7, h8, h9, h10, h11, h12]
  cases c.bootLoader <;> cases c.dm <;> simp

/-- A chip with protected upper quarter whose write cycles last longer than a call. -/
def chip : Chip := ⟨fun n => decide (100 < n), fun _ => 0xFF, fun a => decide (0xC0 ≤ a.toNat)⟩

example : chip.prot ((5 : U16).setWidth 8) = false ∧ ∀ n, n ≤ 0 + 2 * (2 + 2) → chip.fin n = false := ⟨by decide, fun n h => by simp [chip]; omega⟩

/-- The hypotheses of `C80_arm_partial` are met: the same chip, slow accesses. -/
example : (∀ n, ({ chip with fin := fun _ => true } : Chip).fin n = true) ∧ ∀ a : Nat, a < 192 → ({ chip with fin := fun _ => true } : Chip).prot (BitVec.ofNat 8 a) = false :=
  ⟨fun _ => rfl, fun a h => by simp [chip]; omega⟩

example : spec story (fun _ => 0xFF) = [[], [], [7], [0xFF, 1, 2, 3], [], [1, 9, 3]] := by decide

end Vscp.PsAccessProps
