/-
Property theorems: leaving the active state - drop of the nickname, reset, idle, boot loader (C35 - C38, C44).
-/
import Verif.Props.States

namespace Vscp.Drop
open M Spec Transport Safety

/-! ### C38: drop nickname -/

/-- The outcome of a drop nickname event: the state after the cycle, without the part which concerns the heartbeat and a pending extended page
read. -/
structure Dropped (c : Ctx) (w w' : W) (idle keep restore : Bool) (wait : U8) : Prop where
  st : w'.v.st = if idle then .idle else .reset
  wait : idle = false → w'.v.secCnt = wait ∧ w'.v.resetReq = w.v.resetReq ∧
    (w.tm.ok .main = true → w'.tm.rem .main = if wait = 0 then 0 else 1000)
  nick : w'.v.nick = if keep then w.v.nick else 0xFF
  stored : w.ps (Ps.addrNickname c) = w.v.nick → w'.ps (Ps.addrNickname c) = w'.v.nick
  restored : ∃ t, w'.out = w.out ++ t ∧ (.appRestore ∈ t ↔ restore = true)

theorem bit (f : U8) : (f &&& 0x20 ≠ 0 ↔ f.getLsbD 5 = true) ∧ (f &&& 0x40 ≠ 0 ↔ f.getLsbD 6 = true) ∧
    (f &&& 0x80 ≠ 0 ↔ f.getLsbD 7 = true) := by
  have : ∀ f : U8, (f &&& 0x20 ≠ 0 ↔ f.getLsbD 5 = true) ∧ (f &&& 0x40 ≠ 0 ↔ f.getLsbD 6 = true) ∧
    (f &&& 0x80 ≠ 0 ↔ f.getLsbD 7 = true) := by decide +kernel
  exact this f

theorem dropped_tail {c : Ctx} {w1 w w2 w' : W} {idle keep restore : Bool} {wait : U8} {t1 : List Out} {m : Msg}
    (ht1 : w1.out = w.out ++ t1) (ho : ∀ o ∈ t1, ∃ b, o = .protoEvent m b)
    (hs : ∀ k : Comp, [Comp.epoch, .tm .epoch, .lb, .rx, .lg].contains k = false → k.same w w1)
    (ht : Tail c w2 w') (h : Dropped c w1 w2 idle keep restore wait) : Dropped c w w' idle keep restore wait := by
  have hnick : w1.v.nick = w.v.nick := hs .nick (by decide)
  have hps : w1.ps = w.ps := hs .ps (by decide)
  have hok : w1.tm.ok = w.tm.ok := hs .ok (by decide)
  have hrr : w1.v.resetReq = w.v.resetReq := hs .reset (by decide)
  have hps' : w'.ps = w2.ps := ht.steps.same .ps (by decide)
  have hnick' : w'.v.nick = w2.v.nick := ht.steps.same .nick (by decide)
  refine ⟨?_, ?_, ?_, ?_, ?_⟩
  · exact (ht.steps.same .st (by decide)).trans h.st
  · intro hi
    obtain ⟨h1, h2, h3⟩ := h.wait hi
    refine ⟨(ht.steps.same .sec (by decide)).trans h1, ((ht.steps.same .reset (by decide)).trans h2).trans hrr, fun hk => ?_⟩
    exact (ht.steps.same (.tm .main) (by decide)).trans (h3 (by rw [hok]; exact hk))
  · rw [hnick', h.nick, hnick]
  · intro he
    rw [hps', hnick']
    exact h.stored (by rw [hps, hnick]; exact he)
  · obtain ⟨t2, h2, h2'⟩ := h.restored
    obtain ⟨t3, h3, h3'⟩ := ht.steps.outs
    refine ⟨t1 ++ (t2 ++ t3), by rw [h3, h2, ht1]; simp only [List.append_assoc], ?_⟩
    rw [← h2']
    simp only [List.mem_append]
    refine ⟨?_, fun h => .inr (.inl h)⟩
    rintro (hm | hm | hm)
    · obtain ⟨b, hb⟩ := ho _ hm; cases hb
    · exact hm
    · obtain ⟨a, ha, he⟩ := h3' _ hm
      simp only [afterActs, List.mem_cons, List.not_mem_nil, or_false] at ha
      rcases ha with rfl | rfl | rfl | rfl | rfl | rfl | rfl | rfl | rfl <;> simp [Act.emits] at he

/-- C38: with the nickname only, the nickname is cleared and the node resets at once. -/
theorem C38_plain {c : Ctx} {rx : Option Msg} {w : W} {m : Msg} (h : Takes c rx w m) (hm : Request m 8 [w.v.nick]) :
    Dropped c w (Core.process c rx w).2 false false false 0 := by
  obtain ⟨w1, t1, ht1, ho1, hs, htail⟩ := takes_cycle h hm.cls
  refine dropped_tail ht1 ho1 hs htail ?_
  have hn1 : w1.v.nick = w.v.nick := hs .nick (by decide)
  have hst : w1.v.st = .active := (hs .st (by decide)).trans h.1
  have d0 : m.data[0] = w.v.nick := hm.at 0 (by simp) (by simp)
  have hsz : m.size = 1 := hm.size
  rw [handler8 hm.typ, Core.handleDropNicknameId, bind_run, get_run, whenM_run, if_pos ⟨by rw [hsz]; decide, by rw [hn1, d0]⟩,
    if_pos hsz, bind_run, writeNick_run, reset_run _ _ (by simp [hst])]
  refine ⟨rfl, fun _ => ⟨rfl, rfl, fun hk => ?_⟩, rfl, fun _ => ?_,
    ⟨[.psW (Ps.addrNickname c) Core.NOT_INIT, .lamp .off], ?_, ?_⟩⟩
  · simp [hk]
  · simp [Core.NOT_INIT]
  · simp
  · simp

/-- The handling of a drop nickname event with options. -/
theorem handler_dropped {c : Ctx} {w1 : W} {m : Msg} {f : U8} {l : List U8} (hst : w1.v.st = .active)
    (hl : l.length ≤ 1) (hm : Request m 8 (w1.v.nick :: f :: l)) :
    Dropped c w1 (Core.handleProtocolClassType c m w1).2 (!f.getLsbD 5 && f.getLsbD 7) (f.getLsbD 5) (f.getLsbD 6) (l.headD 0) := by
  have h8 : (w1.v.nick :: f :: l).length ≤ 8 := by simp; omega
  have d0 : m.data[0] = w1.v.nick := hm.at 0 (by simp) h8
  have d1 : m.data[1] = f := hm.at 1 (by simp) h8
  have hsz : (m.size = 2 ∧ l = []) ∨ (m.size = 3 ∧ l = [m.data[2]]) := by
    rcases l with _ | ⟨t, _ | ⟨_, l⟩⟩
    · exact .inl ⟨hm.size, rfl⟩
    · exact .inr ⟨hm.size, by rw [show m.data[2] = t from hm.at 2 (by simp) h8]⟩
    · simp at hl
  have hwait : (if m.size = 3 then m.data[2] else 0) = l.headD 0 := by
    rcases hsz with ⟨h1, h2⟩ | ⟨h1, h2⟩ <;> rw [h1, h2] <;> simp
  have hs1 : ¬ m.size = 1 := by rcases hsz with ⟨h, -⟩ | ⟨h, -⟩ <;> rw [h] <;> decide
  have hs2 : m.size = 2 ∨ m.size = 3 := hsz.imp And.left And.left
  have hs0 : 0 < m.size.toNat := by rcases hsz with ⟨h, -⟩ | ⟨h, -⟩ <;> rw [h] <;> decide
  obtain ⟨b5, b6, b7⟩ := bit f
  rw [handler8 hm.typ, Core.handleDropNicknameId, bind_run, get_run, whenM_run, if_pos ⟨hs0, d0.symm⟩,
    if_neg hs1, if_pos hs2, bind_run, whenM_run, d1, hwait]
  -- the optional restore of the factory settings
  obtain ⟨w2, hw2⟩ : ∃ w2, w2 = (if f &&& 0x40 ≠ 0 then ((do
      Core.restoreFactoryDefaultSettings c
      whenM (f &&& 0x20 ≠ 0) (Core.writeNicknameId c w1.v.nick)) : M Unit) w1 else ((), w1)).2 := ⟨_, rfl⟩
  have key : w2.v.st = .active ∧ w2.v.resetReq = w1.v.resetReq ∧ w2.tm = w1.tm ∧ (f.getLsbD 5 = true → w2.v.nick = w1.v.nick ∧
      (w1.ps (Ps.addrNickname c) = w1.v.nick → w2.ps (Ps.addrNickname c) = w1.v.nick)) ∧
      ∃ t, w2.out = w1.out ++ t ∧ (.appRestore ∈ t ↔ f.getLsbD 6 = true) := by
    rw [hw2]
    by_cases h6 : f &&& 0x40 ≠ 0
    · rw [if_pos h6, bind_run, restore_run, whenM_run]
      by_cases h5 : f &&& 0x20 ≠ 0
      · rw [if_pos h5, writeNick_run]
        refine ⟨hst, rfl, rfl, fun _ => ⟨rfl, fun _ => by simp⟩, traceOf (Restore.all c) ++ [.appRestore, .portRestore] ++
          [.psW (Ps.addrNickname c) w1.v.nick], by simp, by simp [b6.mp h6]⟩
      · rw [if_neg h5]
        exact ⟨hst, rfl, rfl, fun h => absurd (b5.mpr h) h5, _, rfl, by simp [b6.mp h6]⟩
    · rw [if_neg h6]
      exact ⟨hst, rfl, rfl, fun _ => ⟨rfl, id⟩, [], by simp, ⟨fun h => by simp at h, fun h => absurd (b6.mpr h) h6⟩⟩
  rw [← hw2]
  obtain ⟨k1, k2, k3, k4, t, k5, k6⟩ := key
  simp only [ite_run]
  by_cases h5 : f &&& 0x20 ≠ 0
  · have e5 := b5.mp h5
    obtain ⟨k4a, k4b⟩ := k4 e5
    rw [if_pos h5, reset_run _ _ (by rw [k1]; decide), e5]
    refine ⟨rfl, fun _ => ⟨rfl, k2, fun hk => ?_⟩, k4a, fun he => ?_, t ++ [.lamp .off], ?_, ?_⟩
    · simp [k3, hk]
    · exact (k4b he).trans k4a.symm
    · simp [k5]
    · simpa using k6
  · have e5 : f.getLsbD 5 = false := by
      cases hb : f.getLsbD 5 with
      | false => rfl
      | true => exact absurd (b5.mpr hb) h5
    rw [if_neg h5, e5]
    by_cases h7 : f &&& 0x80 ≠ 0
    · rw [if_pos h7, bind_run, writeNick_run, idle_run _ _ (by simp [k1]), b7.mp h7]
      refine ⟨rfl, fun h => by simp at h, rfl, fun _ => by simp [Core.NOT_INIT],
        t ++ ([.psW (Ps.addrNickname c) Core.NOT_INIT] ++ (.lamp .off :: if c.idleCallout then [.idleEntered] else [])),
        by simp only [k5, List.append_assoc], ?_⟩
      rw [List.mem_append, ← k6]
      refine ⟨fun h => h.elim id fun h => ?_, .inl⟩
      split at h <;> simp at h
    · have e7 : f.getLsbD 7 = false := by
        cases hb : f.getLsbD 7 with
        | false => rfl
        | true => exact absurd (b7.mpr hb) h7
      rw [if_neg h7, bind_run, writeNick_run, reset_run _ _ (by simp [k1]), e7]
      refine ⟨rfl, fun _ => ⟨rfl, k2, fun hk => ?_⟩, rfl, fun _ => by simp [Core.NOT_INIT],
        t ++ ([.psW (Ps.addrNickname c) Core.NOT_INIT] ++ [.lamp .off]), by simp [k5], ?_⟩
      · simp [k3, hk]
      · simpa using k6

/-- C38: with options.  Bit 6 restores the factory settings, bit 5 keeps the nickname and resets, bit 7 clears the nickname and goes idle, if bit 5
is not set; otherwise the nickname is cleared and the node resets.  The wait time is the third byte, or 0. -/
theorem C38_options {c : Ctx} {rx : Option Msg} {w : W} {m : Msg} {f : U8} {l : List U8} (h : Takes c rx w m)
    (hl : l.length ≤ 1) (hm : Request m 8 (w.v.nick :: f :: l)) :
    Dropped c w (Core.process c rx w).2 (!f.getLsbD 5 && f.getLsbD 7) (f.getLsbD 5) (f.getLsbD 6) (l.headD 0) := by
  obtain ⟨w1, t1, ht1, ho1, hs, htail⟩ := takes_cycle h hm.cls
  have hn1 : w1.v.nick = w.v.nick := hs .nick (by decide)
  exact dropped_tail ht1 ho1 hs htail (handler_dropped ((hs .st (by decide)).trans h.1) hl (by rw [hn1]; exact hm))

/-- The options of the example: keep and wait 3 s, go idle with factory settings. -/
example : let w := node Ex.ctx allOk (mem 0x60) [.process none]
    let a := (Core.process Ex.ctx (some (Ex.msg 0 8 0 [5, 0xA0, 3])) w).2
    let b := (Core.process Ex.ctx (some (Ex.msg 0 8 0 [5, 0xC0])) w).2
    (a.v.st, a.v.nick, a.v.secCnt, a.out.contains .appRestore) = (.reset, 5, 3, false) ∧
    (b.v.st, b.v.nick, b.out.contains .appRestore) = (.idle, 0xFF, true) := by
  refine ⟨by decide +kernel, by decide +kernel⟩

/-! ### C44: the boot loader -/

theorem msb_eq (x : U16) : wordMsb x = BitVec.ofNat 8 (x.toNat / 256) := by
  apply BitVec.eq_of_toNat_eq
  simp [wordMsb, BitVec.toNat_setWidth, Nat.shiftRight_eq_div_pow]
theorem lsb_eq (x : U16) : wordLsb x = BitVec.ofNat 8 (x.toNat % 256) := by
  apply BitVec.eq_of_toNat_eq
  simp [wordLsb, BitVec.toNat_setWidth]

theorem mkWord_eq (x : U16) (hi lo : U8) : x = mkWord hi lo ↔ hi = wordMsb x ∧ lo = wordLsb x := by
  constructor
  · rintro rfl
    have h : ∀ hi lo : U8, hi = wordMsb (mkWord hi lo) ∧ lo = wordLsb (mkWord hi lo) := by
      intro hi lo
      constructor
      · apply BitVec.eq_of_getLsbD_eq
        intro i hi'
        simp only [wordMsb, mkWord, BitVec.getLsbD_setWidth, BitVec.getLsbD_ushiftRight, BitVec.getLsbD_or, BitVec.getLsbD_shiftLeft]
        have : lo.getLsbD (8 + i) = false := BitVec.getLsbD_of_ge _ _ (by omega)
        simp [hi', show 8 + i < 16 by omega, show i < 16 by omega, show ¬ (8 + i < 8) by omega]
      · apply BitVec.eq_of_getLsbD_eq
        intro i hi'
        simp only [wordLsb, mkWord, BitVec.getLsbD_setWidth, BitVec.getLsbD_or, BitVec.getLsbD_shiftLeft]
        simp [hi', show i < 16 by omega]
    exact h hi lo
  · rintro ⟨rfl, rfl⟩
    apply BitVec.eq_of_getLsbD_eq
    intro i hi
    simp only [wordMsb, wordLsb, mkWord, BitVec.getLsbD_setWidth, BitVec.getLsbD_ushiftRight, BitVec.getLsbD_or, BitVec.getLsbD_shiftLeft]
    by_cases h : i < 8
    · simp [h, hi]
    · simp [h, hi, show i - 8 < 16 by omega, show 8 + (i - 8) = i by omega, show i - 8 < 8 by omega]

/-- The event is an authorised request to enter the boot loader. -/
def Authorised (c : Ctx) (w : W) (m : Msg) : Prop :=
  c.bootLoader = true ∧ c.bootAlgo ≠ 0xFF ∧ Request m 12 (bootRequest c w)

theorem payload8 {m : Msg} (hs : m.size = 8) : payload m =
    [m.data[0], m.data[1], m.data[2], m.data[3], m.data[4], m.data[5], m.data[6], m.data[7]] := by
  unfold payload
  rw [hs, vec8_list m.data]
  rfl

theorem authorised_iff {c : Ctx} {w : W} {m : Msg} (hm : m.cls = 0) (ht : m.typ = 12) :
    Authorised c w m ↔ (m.size = 8 ∧ w.v.nick = m.data[0]) ∧ c.bootLoader = true ∧
      ¬(0xFF = c.bootAlgo ∨ c.bootAlgo ≠ m.data[1] ∨ (DevData.getGuid c 15 w).1 ≠ m.data[2] ∨ (DevData.getGuid c 12 w).1 ≠ m.data[3] ∨
        (DevData.getGuid c 10 w).1 ≠ m.data[4] ∨ (DevData.getGuid c 8 w).1 ≠ m.data[5] ∨ w.v.page ≠ mkWord m.data[6] m.data[7]) := by
  have hpage := mkWord_eq w.v.page m.data[6] m.data[7]
  rw [msb_eq, lsb_eq] at hpage
  constructor
  · rintro ⟨h1, h2, h3⟩
    have hl : (bootRequest c w).length = 8 := rfl
    have h8 : (bootRequest c w).length ≤ 8 := by rw [hl]; exact Nat.le_refl 8
    have d0 : m.data[0] = w.v.nick := h3.at 0 (by rw [hl]; omega) h8
    have d1 : m.data[1] = c.bootAlgo := h3.at 1 (by rw [hl]; omega) h8
    have d2 : m.data[2] = (DevData.getGuid c 15 w).1 := h3.at 2 (by rw [hl]; omega) h8
    have d3 : m.data[3] = (DevData.getGuid c 12 w).1 := h3.at 3 (by rw [hl]; omega) h8
    have d4 : m.data[4] = (DevData.getGuid c 10 w).1 := h3.at 4 (by rw [hl]; omega) h8
    have d5 : m.data[5] = (DevData.getGuid c 8 w).1 := h3.at 5 (by rw [hl]; omega) h8
    have d6 : m.data[6] = BitVec.ofNat 8 (w.v.page.toNat / 256) := h3.at 6 (by rw [hl]; omega) h8
    have d7 : m.data[7] = BitVec.ofNat 8 (w.v.page.toNat % 256) := h3.at 7 (by rw [hl]; omega) h8
    refine ⟨⟨h3.size, d0.symm⟩, h1, ?_⟩
    simp only [not_or, Decidable.not_not]
    exact ⟨fun h => h2 h.symm, d1.symm, d2.symm, d3.symm, d4.symm, d5.symm, hpage.mpr ⟨d6, d7⟩⟩
  · rintro ⟨⟨hs, h0⟩, h1, h2⟩
    simp only [not_or, Decidable.not_not] at h2
    obtain ⟨ha, e1, e2, e3, e4, e5, e6⟩ := h2
    refine ⟨h1, fun h => ha h.symm, hm, ht, hs, ?_⟩
    obtain ⟨p6, p7⟩ := hpage.mp e6
    have hp : m.data.toList.take (bootRequest c w).length = payload m := by
      unfold payload; rw [hs]; rfl
    rw [hp, payload8 hs]
    unfold bootRequest
    rw [← p6, ← p7, h0, ← e1, ← e2, ← e3, ← e4, ← e5]

/-- The handler of an event to enter the boot loader. -/
theorem handle12 {c : Ctx} {w : W} {m : Msg} (hm : m.cls = 0) (ht : m.typ = 12) :
    (Authorised c w m → Core.handleProtocolClassType c m w = ((do
        Core.changeToStateIdle c
        Ps.writeBootFlag c 0xBB
        emit .bootLoaderRequest) : M Unit) w) ∧
    (¬ Authorised c w m → m.size = 8 → w.v.nick = m.data[0] → Core.handleProtocolClassType c m w = Core.txVoid c 3 14 [0] w) ∧
    (¬ Authorised c w m → Core.handleProtocolClassType c m w = Core.txVoid c 3 14 [0] w ∨
      Core.handleProtocolClassType c m w = ((), w)) := by
  have hg : ∀ i, DevData.getGuid c i w = ((DevData.getGuid c i w).1, w) := fun i => by
    rw [Prod.ext_iff]; exact ⟨rfl, getGuid_snd c i w⟩
  have hrun : Core.handleProtocolClassType c m w = if m.size = 8 ∧ w.v.nick = m.data[0] then
      (if c.bootLoader then
        (if 0xFF = c.bootAlgo ∨ c.bootAlgo ≠ m.data[1] ∨ (DevData.getGuid c 15 w).1 ≠ m.data[2] ∨ (DevData.getGuid c 12 w).1 ≠ m.data[3] ∨
          (DevData.getGuid c 10 w).1 ≠ m.data[4] ∨ (DevData.getGuid c 8 w).1 ≠ m.data[5] ∨ w.v.page ≠ mkWord m.data[6] m.data[7] then
          Core.txVoid c 3 14 [0] w
        else ((do
          Core.changeToStateIdle c
          Ps.writeBootFlag c 0xBB
          emit .bootLoaderRequest) : M Unit) w)
      else Core.txVoid c 3 14 [0] w) else ((), w) := by
    rw [handler12 ht, Core.handleEnterBootLoaderMode, bind_run, get_run]
    simp only [whenM_run, ite_run]
    split
    · split
      · rw [bind_run, hg 15, bind_run]
        dsimp only
        rw [hg 12, bind_run]
        dsimp only
        rw [hg 10, bind_run]
        dsimp only
        rw [hg 8]
        dsimp only
        rw [ite_run]
      · rfl
    · rfl
  rw [hrun]
  have ha := authorised_iff (c := c) (w := w) hm ht
  refine ⟨fun h => ?_, fun h h8 h0 => ?_, fun h => ?_⟩
  · obtain ⟨h1, h2, h3⟩ := ha.mp h
    rw [if_pos h1, if_pos h2, if_neg h3]
  · rw [if_pos ⟨h8, h0⟩]
    split
    · rename_i hb
      rw [if_pos]
      refine Decidable.byContradiction fun h3 => h (ha.mpr ⟨⟨h8, h0⟩, hb, h3⟩)
    · rfl
  · split
    · rename_i h1
      split
      · rename_i hb
        rw [if_pos]
        · exact .inl rfl
        · exact Decidable.byContradiction fun h3 => h (ha.mpr ⟨h1, hb, h3⟩)
      · exact .inl rfl
    · exact .inr rfl

theorem authorised_congr {c : Ctx} {w w1 : W} {m : Msg}
    (hs : ∀ k : Comp, [Comp.epoch, .tm .epoch, .lb, .rx, .lg].contains k = false → k.same w w1) :
    Authorised c w1 m ↔ Authorised c w m := by
  have h1 : w1.v.nick = w.v.nick := hs .nick (by decide)
  have h2 : w1.v.page = w.v.page := hs .page (by decide)
  have h3 : w1.ps = w.ps := hs .ps (by decide)
  have hg : ∀ i, (DevData.getGuid c i w1).1 = (DevData.getGuid c i w).1 := by
    intro i
    unfold DevData.getGuid Ps.readGuid Ps.readIdx
    simp only [ite_run, psRead8_run, pure_run, h3]
    split <;> (try split) <;> rfl
  unfold Authorised bootRequest
  rw [h1, h2, hg, hg, hg, hg]

/-- C44: an authorised request is obeyed: the node goes idle, sets the boot loader flag, and requests the boot loader. -/
theorem C44_enters {c : Ctx} {rx : Option Msg} {w : W} {m : Msg} (h : Takes c rx w m) (ha : Authorised c w m) :
    (Core.process c rx w).2.v.st = .idle ∧ (Core.process c rx w).2.ps (Ps.addrBootFlag c) = 0xBB ∧
    ∃ t, (Core.process c rx w).2.out = w.out ++ t ∧ .bootLoaderRequest ∈ t := by
  obtain ⟨w1, t1, ht1, ho1, hs, htail⟩ := takes_cycle h ha.2.2.cls
  have hst : w1.v.st = .active := (hs .st (by decide)).trans h.1
  have hrun := (handle12 (c := c) (w := w1) ha.2.2.cls ha.2.2.typ).1 ((authorised_congr hs).mpr ha)
  rw [bind_run, idle_run _ _ (by rw [hst]; decide), bind_run] at hrun
  obtain ⟨t3, ht3, -⟩ := htail.sends
  have hps := htail.steps.same .ps (by decide)
  have hst' := htail.steps.same .st (by decide)
  simp only [Comp.same] at hps hst'
  rw [hrun] at ht3 hps hst'
  refine ⟨hst', ?_, ?_⟩
  · rw [hps]; simp [Ps.writeBootFlag]
  · refine ⟨t1 ++ ((.lamp .off :: if c.idleCallout then [.idleEntered] else []) ++ [.psW (Ps.addrBootFlag c) 0xBB] ++ [.bootLoaderRequest] ++ t3),
      ?_, by simp⟩
    rw [ht3]
    simp [Ps.writeBootFlag, ht1]

/-- C44: every other request to enter the boot loader which is addressed to the node is refused, and nothing else happens. -/
theorem C44_refuses {c : Ctx} {rx : Option Msg} {w : W} {m : Msg} (h : Takes c rx w m) (hm : m.cls = 0) (ht : m.typ = 12) (h8 : m.size = 8)
    (hn : m.data[0] = w.v.nick) (ha : ¬ Authorised c w m) :
    (Core.process c rx w).2.v.st = .active ∧ (Core.process c rx w).2.ps = w.ps ∧
    ∃ t1 ok t2, (Core.process c rx w).2.out = w.out ++ t1 ++ [.tx (event c w.v.nick 3 14 [0]) ok] ++ t2 ∧ frames t1 = [] ∧
      ∀ f ∈ frames t2, (f.cls = 20 ∧ f.typ = 9) ∨ (f.cls = 0 ∧ f.typ = 39 ∧ 0 < w.v.ext.count.toNat) := by
  obtain ⟨w1, t1, ht1, ho1, hs, htail⟩ := takes_cycle h hm
  have hn1 : w1.v.nick = w.v.nick := hs .nick (by decide)
  have hrun := (handle12 (c := c) (w := w1) hm ht).2.1 (fun h => ha ((authorised_congr hs).mp h)) h8 (by rw [hn1, hn])
  rw [txVoid_run c 3 14 [0] (by decide) w1] at hrun
  obtain ⟨t3, ht3, hf3⟩ := htail.sends
  have hps := htail.steps.same .ps (by decide)
  have hst' := htail.steps.same .st (by decide)
  simp only [Comp.same] at hps hst'
  rw [hrun] at ht3 hps hst' hf3
  rw [sent_out, ht1] at ht3
  dsimp only at hst' hps hf3
  rw [sent_v] at hst' hf3
  rw [sent_ps] at hps
  refine ⟨hst'.trans ((hs .st (by decide)).trans h.1), hps.trans (hs .ps (by decide)), t1, _, t3, by rw [← hn1]; exact ht3, frames_proto ho1, ?_⟩
  intro f hf
  rcases hf3 f hf with h | h
  · exact .inl ⟨h.1, h.2.1⟩
  · have hext : w1.v.ext = w.v.ext := hs .ext (by decide)
    exact .inr ⟨h.1, h.2.1, by rw [← hext]; exact h.2.2.2⟩

/-- C44: the boot loader is requested only for an authorised event, in every state of the node. -/
theorem C44_only {c : Ctx} {rx : Option Msg} {w : W} {t : List Out} (ht : (Core.process c rx w).2.out = w.out ++ t)
    (hb : .bootLoaderRequest ∈ t) : ∃ m, Takes c rx w m ∧ Authorised c w m := by
  have notTail : ∀ {w1 w2 : W}, Tail c w1 w2 → ∀ t2, w2.out = w1.out ++ t2 → .bootLoaderRequest ∉ t2 := by
    intro w1 w2 htail t2 ht2 hm
    obtain ⟨t3, ht3, ho⟩ := htail.steps.outs
    have : t2 = t3 := List.append_cancel_left (ht2.symm.trans ht3)
    subst this
    obtain ⟨a, ha, he⟩ := ho _ hm
    simp only [afterActs, List.mem_cons, List.not_mem_nil, or_false] at ha
    rcases ha with rfl | rfl | rfl | rfl | rfl | rfl | rfl | rfl | rfl <;> simp [Act.emits] at he
  by_cases hst : w.v.st = .active
  · by_cases hex : ∃ m, m.cls = 0 ∧ Takes c rx w m
    · obtain ⟨m, hm, htk⟩ := hex
      obtain ⟨w1, t1, ht1, ho1, hs, htail⟩ := takes_cycle htk hm
      obtain ⟨t3, ht3, -⟩ := htail.sends
      have hnot1 : .bootLoaderRequest ∉ t1 := fun h => by obtain ⟨b, hb⟩ := ho1 _ h; cases hb
      by_cases h12 : m.typ = 12
      · refine Classical.byContradiction fun hno => ?_
        have ha : ¬ Authorised c w m := fun ha => hno ⟨m, htk, ha⟩
        have hout : ∃ t2, (Core.handleProtocolClassType c m w1).2.out = w1.out ++ t2 ∧ .bootLoaderRequest ∉ t2 := by
          rcases (handle12 (c := c) (w := w1) hm h12).2.2 (fun h => ha ((authorised_congr hs).mp h)) with e | e
          · rw [e, txVoid_run c 3 14 [0] (by decide) w1, sent_out]
            exact ⟨_, rfl, by simp⟩
          · rw [e]; exact ⟨[], by simp, by simp⟩
        obtain ⟨t2, ht2, hb2⟩ := hout
        rw [ht3, ht2, ht1] at ht
        have : t = t1 ++ t2 ++ t3 := by simpa only [List.append_assoc, List.append_cancel_left_eq] using ht.symm
        subst this
        simp only [List.mem_append] at hb
        rcases hb with (hb | hb) | hb
        · exact hnot1 hb
        · exact hb2 hb
        · exact notTail htail t3 ht3 hb
      · obtain ⟨t2, ht2, ho2⟩ := Calls.handler (c := c) h12 w1
        rw [ht3, ht2, ht1] at ht
        have : t = t1 ++ t2 ++ t3 := by simpa only [List.append_assoc, List.append_cancel_left_eq] using ht.symm
        subst this
        simp only [List.mem_append] at hb
        rcases hb with (hb | hb) | hb
        · exact absurd hb hnot1
        · exact absurd rfl (ho2 _ hb).2
        · exact absurd hb (notTail htail t3 ht3)
    · obtain ⟨w1, t1, ht1, ho1, hs, htail⟩ := other_cycle (c := c) (rx := rx) hst (fun m hm htk => hex ⟨m, hm, htk⟩)
      obtain ⟨t3, ht3, -⟩ := htail.sends
      rw [ht3, ht1] at ht
      have : t = t1 ++ t3 := by simpa only [List.append_assoc, List.append_cancel_left_eq] using ht.symm
      subst this
      rcases List.mem_append.mp hb with hf | hf
      · rcases ho1 _ hf with ⟨_, _, h⟩ | ⟨_, h⟩ <;> cases h
      · exact absurd hf (notTail htail t3 ht3)
  · obtain ⟨t', ht', ho⟩ := (inactive_cycle (c := c) (rx := rx) hst).outs
    rw [pre_out] at ht'
    have : t = t' := List.append_cancel_left (ht.symm.trans ht')
    subst this
    obtain ⟨a, ha, he⟩ := ho _ hb
    simp only [inactiveActs, List.mem_cons, List.not_mem_nil, or_false] at ha
    rcases ha with rfl | rfl | rfl | rfl | rfl | rfl | rfl | rfl | rfl | rfl | rfl | rfl | rfl | rfl | rfl | rfl <;>
      simp [Act.emits] at he

/-- An authorised request in the example: algorithm 1, page 0, GUID all 0 in memory. -/
example : let w := node Ex.ctx allOk (mem 0x60) [.process none]
    let m := Ex.msg 0 12 0 [5, 1, 0, 0, 0, 0, 0, 0]
    Takes Ex.ctx (some m) w m ∧ Authorised Ex.ctx w m ∧ ¬ Authorised Ex.ctx w (Ex.msg 0 12 0 [5, 1, 0, 0, 0, 9, 0, 0]) := by
  refine ⟨⟨by decide +kernel, by decide +kernel, by decide +kernel⟩, ⟨rfl, by decide, rfl, rfl, rfl, by decide +kernel⟩, ?_⟩
  rintro ⟨-, -, h⟩
  have := h.data
  revert this
  decide +kernel

end Vscp.Drop
