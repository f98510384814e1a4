/-
Property theorems: a change of the segment is not forgotten by a loss of power (C114).
-/
import Verif.Props.Wear
import Verif.Props.Time
import Verif.Props.Restart
import Verif.Spec.SegmentLoss

namespace Vscp.SegmentLoss
open M Vscp.Spec Vscp.Safety Vscp.Wear Vscp.RestartProps Transport

/-- The memory after some calls depends on the bytes written only. -/
theorem memAfter_stored (ps : Nat → U8) (t : List Out) : memAfter ps t = applyWrites ps (storedIn t) := by
  induction t generalizing ps with
  | nil => rfl
  | cons o t ih => cases o <;> exact ih _

theorem stored_take (t : List Out) (k : Nat) : ∃ j, storedIn (t.take k) = (storedIn t).take j := by
  induction t generalizing k with
  | nil => exact ⟨0, by simp [storedIn]⟩
  | cons o t ih =>
    cases k with
    | zero => exact ⟨0, by simp [storedIn]⟩
    | succ k =>
      obtain ⟨j, h⟩ := ih k
      rw [List.take_succ_cons]
      cases o <;> first
        | exact ⟨j, h⟩
        | (refine ⟨j + 1, ?_⟩
           show _ :: storedIn (t.take k) = (_ :: storedIn t).take (j + 1)
           rw [h]; rfl)

/-- If the power is lost, the first bytes written are in the memory. -/
theorem lossMem_stored (w w' : W) (k : Nat) : ∃ j, lossMem w w' k = applyWrites w.ps ((stored w w').take j) := by
  obtain ⟨j, h⟩ := stored_take (w'.out.drop w.out.length) k
  exact ⟨j, by unfold lossMem stored; rw [memAfter_stored, h]⟩

/-- Every number of bytes is possible. -/
theorem take_stored (t : List Out) (j : Nat) : ∃ k, storedIn (t.take k) = (storedIn t).take j := by
  induction t generalizing j with
  | nil => exact ⟨0, by simp [storedIn]⟩
  | cons o t ih =>
    by_cases hj : j = 0
    · exact ⟨0, by simp [storedIn, hj]⟩
    obtain ⟨i, rfl⟩ : ∃ i, j = i + 1 := ⟨j - 1, by omega⟩
    cases o <;> first
      | (obtain ⟨k, h⟩ := ih (i + 1)
         exact ⟨k + 1, h⟩)
      | (obtain ⟨k, h⟩ := ih i
         refine ⟨k + 1, ?_⟩
         show _ :: storedIn (t.take k) = (_ :: storedIn t).take (i + 1)
         rw [h]; rfl)

theorem stored_lossMem (w w' : W) (j : Nat) : ∃ k, lossMem w w' k = applyWrites w.ps ((stored w w').take j) := by
  obtain ⟨k, h⟩ := take_stored (w'.out.drop w.out.length) j
  exact ⟨k, by unfold lossMem stored; rw [memAfter_stored, h]⟩

/-- C114: what is in the memory if the power is lost while the node deals with a segment heartbeat with another CRC: what was there before, or also the new CRC,
or also that it has no nickname. -/
theorem C114_memory {c : Ctx} {rx : Option Msg} {w : W} {m : Msg} {crc : U8} (hT : Takes c rx w m) (hseg : c.hbSegment = true) (hb : segBeat m crc)
    (hne : w.ps (Ps.addrSegCrc c) ≠ crc) (hp : w.v.probe ≠ 0) (ps : Nat → U8) :
    (∃ k, ps = lossMem w (stepOp c (.process rx) w).2 k) ↔
      ps = w.ps ∨ ps = putByte w.ps (Ps.addrSegCrc c) crc ∨ ps = putByte (putByte w.ps (Ps.addrSegCrc c) crc) (Ps.addrNickname c) 0xFF := by
  have h := C95_segment hT hb.1 hb.2.1 hseg hb.2.2 (fun e => hne e.symm)
  rw [if_neg hp] at h
  constructor
  · rintro ⟨k, rfl⟩
    obtain ⟨j, e⟩ := lossMem_stored w (stepOp c (.process rx) w).2 k
    rw [e, h]
    match j with
    | 0 => exact .inl rfl
    | 1 => exact .inr (.inl rfl)
    | j + 2 => exact .inr (.inr (by rw [List.take_of_length_le (by simp)]; rfl))
  · have key : ∀ j, ps = applyWrites w.ps ([(Ps.addrSegCrc c, crc), (Ps.addrNickname c, 0xFF)].take j) → ∃ k, ps = lossMem w (stepOp c (.process rx) w).2 k := by
      intro j e
      obtain ⟨k, hk⟩ := stored_lossMem w (stepOp c (.process rx) w).2 j
      exact ⟨k, by rw [hk, h, e]⟩
    rintro (e | e | e)
    · exact key 0 e
    · exact key 1 e
    · exact key 2 e

theorem start_probe {c : Ctx} (ok : Tmr → Bool) (ps : Nat → U8) : (node c ok ps []).v.probe = 0xFF := by
  obtain ⟨w1, hi, hs⟩ := init_steps c ok (powerUp ps)
  obtain ⟨r, hv⟩ := hi.v
  have e := hs.same .init (by decide)
  simp only [Comp.same] at e
  show (Core.init c ok (powerUp ps)).2.v.probe = 0xFF
  rw [e.2, hv]
  rfl

/-- The first cycle of a node with a nickname. -/
theorem restart_active {c : Ctx} (h : GoodCfg c) (ok : Tmr → Bool) (hok : timersGood c ok = true) (ps : Nat → U8)
    (hv : validStartUp (ps (Ps.addrFlags c)) = true) (hn : ps (Ps.addrNickname c) ≠ 0xFF) (rx : Option Msg) :
    let w := node c ok ps [.process rx]
    w.v.st = .active ∧ w.v.nick = ps (Ps.addrNickname c) ∧ w.ps = ps ∧ w.v.probe = 0xFF := by
  intro w
  obtain ⟨h1, h2, -, -, -, h5, -⟩ := start (c := c) ok _ hv
  have := C99_active h ok ok hok ps [] (by simp) (by rw [h1]; exact hv) (by rw [h2]; exact hn) rx
  rw [h1, h2] at this
  refine ⟨this.1, this.2.1, this.2.2.1, ?_⟩
  have e : w = (Core.process c rx (node c ok ps [])).2 := rfl
  rw [process_startup (h5 hok)] at e
  have p := pre_same c rx (node c ok ps []) .init (by decide)
  have pn := pre_same c rx (node c ok ps []) .nick (by decide)
  simp only [Comp.same] at p pn
  rw [e, ← start_probe (c := c) ok ps, ← p.2]
  unfold Core.stateStartup
  rw [bind_run, get_run]
  dsimp only
  rw [ite_run, if_neg (c := (preProcess c rx (node c ok ps [])).2.v.nick = Core.NOT_INIT) (by rw [pn, h2]; exact hn)]
  have := (Foot.changeToStateActive (c := c) (bad := True) (A := [.st .active, .tx, .tm .heartbeat]) (by simp) (preProcess c rx (node c ok ps [])).2).same .init (by decide)
  simp only [Comp.same] at this
  exact this.2

/-- The first cycle of a node without nickname which looks for one. -/
theorem restart_discovery {c : Ctx} (ok : Tmr → Bool) (hok : timersGood c ok = true) (hs : c.silent = false) (ps : Nat → U8)
    (hv : validStartUp (ps (Ps.addrFlags c)) = true) (hn : ps (Ps.addrNickname c) = 0xFF) (hi : (ps (Ps.addrFlags c)).getLsbD 6 = true) (rx : Option Msg) :
    looksForNick (node c ok ps [.process rx]) := by
  obtain ⟨h1, h2, -, -, -, h5, -⟩ := start (c := c) ok _ hv
  have e : node c ok ps [.process rx] = (Core.process c rx (node c ok ps [])).2 := rfl
  rw [process_startup (h5 hok)] at e
  have p := pre_same c rx (node c ok ps []) .ps (by decide)
  have pn := pre_same c rx (node c ok ps []) .nick (by decide)
  have pt := pre_same c rx (node c ok ps []) .st (by decide)
  simp only [Comp.same] at p pn pt
  rw [e]
  generalize (preProcess c rx (node c ok ps [])).2 = w1 at *
  unfold Core.stateStartup
  rw [bind_run, get_run]
  dsimp only
  rw [ite_run, if_pos (c := w1.v.nick = Core.NOT_INIT) (by rw [pn, h2]; exact hn), ite_run, if_neg (by simp [hs])]
  have hf : ((ps (Ps.addrFlags c)) >>> 6) &&& 0x03 = 0x01 := by
    generalize ps (Ps.addrFlags c) = x at hv hi
    revert x
    decide +kernel
  have hg : Core.getStartUpControl c w1 = (0x01, w1) := by
    unfold Core.getStartUpControl Ps.readFlags
    rw [bind_run, psRead8_run, p, h1]
    dsimp only
    rw [hf]
    rfl
  have hst : w1.v.st ≠ .init := by rw [pt, h5 hok]; decide
  rw [bind_run, hg]
  dsimp only
  rw [whenM_run, if_pos rfl, Core.changeToStateInit, bind_run, get_run, whenM_run, if_pos hst]
  simp only [bind_run, emit_run, setV_run, writeNick_run]
  exact ⟨rfl, rfl, rfl⟩

/-- C114, partial: a change of the segment survives a loss of power, unless the power is lost between the two bytes which are written: behind it the memory knows nothing
of the change, and then the node is active again with its nickname and the next segment heartbeat starts the discovery; or the memory knows everything, and then the node
starts the discovery when it is switched on.  Missing: a loss between the two bytes, see `C114_violated`; and nodes which got their nickname from the segment master
(C42). -/
theorem C114_partial {c : Ctx} (h : GoodCfg c) {rx : Option Msg} {w : W} {m : Msg} {crc : U8} (hT : Takes c rx w m) (hseg : c.hbSegment = true) (hb : segBeat m crc)
    (hne : w.ps (Ps.addrSegCrc c) ≠ crc) (hp : w.v.probe ≠ 0) (hn : w.ps (Ps.addrNickname c) ≠ 0xFF) (hv : validStartUp (w.ps (Ps.addrFlags c)) = true)
    (k : Nat) {ps : Nat → U8} (hps : ps = lossMem w (stepOp c (.process rx) w).2 k) (hw : ps ≠ putByte w.ps (Ps.addrSegCrc c) crc)
    (ok : Tmr → Bool) (hok : timersGood c ok = true) (rx' : Option Msg) :
    (SegOld c.toCfg crc ps (w.ps (Ps.addrNickname c)) ∧ (node c ok ps [.process rx']).v.st = .active ∧
      (node c ok ps [.process rx']).v.nick = w.ps (Ps.addrNickname c) ∧
      ∀ rx'' m', Takes c rx'' (node c ok ps [.process rx']) m' → segBeat m' crc → looksForNick (node c ok ps [.process rx', .process rx''])) ∨
    (SegNew c.toCfg crc ps ∧ (c.silent = false → (w.ps (Ps.addrFlags c)).getLsbD 6 = true → looksForNick (node c ok ps [.process rx']))) := by
  rcases (C114_memory hT hseg hb hne hp ps).mp ⟨k, hps⟩ with e | e | e
  · rw [e]
    obtain ⟨h1, h2, h3, h4⟩ := restart_active h ok hok w.ps hv hn rx'
    refine .inl ⟨⟨hne, rfl⟩, h1, h2, fun rx'' m' hT' hb' => ?_⟩
    have := (Time.C42_changed_partial hT' hseg hb' (by rw [h3]; exact hne)).2.1 (by rw [h4]; decide)
    exact ⟨this.1, this.2.2.1, this.2.1⟩
  · exact absurd e hw
  · have a1 : Ps.addrFlags c.toCfg ≠ Ps.addrNickname c.toCfg := by
      unfold Ps.addrFlags Ps.addrSegCrc Ps.sizeNickname; omega
    have a2 : Ps.addrFlags c.toCfg ≠ Ps.addrSegCrc c.toCfg := by
      unfold Ps.addrFlags Ps.sizeSegCrc; omega
    have a3 : Ps.addrSegCrc c.toCfg ≠ Ps.addrNickname c.toCfg := by
      unfold Ps.addrSegCrc Ps.sizeNickname; omega
    have ef : ps (Ps.addrFlags c) = w.ps (Ps.addrFlags c) := by
      rw [e]; unfold putByte; rw [if_neg a1, if_neg a2]
    have en : ps (Ps.addrNickname c) = 0xFF := by
      rw [e]; exact if_pos rfl
    refine .inr ⟨⟨?_, en⟩, fun hs hi => restart_discovery ok hok hs ps (by rw [ef]; exact hv) en (by rw [ef]; exact hi) rx'⟩
    rw [e]; unfold putByte; rw [if_neg a3, if_pos rfl]

/-- C114: what is missing, in general: the power can be lost behind the CRC and before the nickname.  Then the node is active with its old nickname, and a segment
heartbeat with the CRC of the new segment changes nothing: the change of the segment is forgotten. -/
theorem C114_violated {c : Ctx} (h : GoodCfg c) {rx : Option Msg} {w : W} {m : Msg} {crc : U8} (hT : Takes c rx w m) (hseg : c.hbSegment = true) (hb : segBeat m crc)
    (hne : w.ps (Ps.addrSegCrc c) ≠ crc) (hp : w.v.probe ≠ 0) (hn : w.ps (Ps.addrNickname c) ≠ 0xFF) (hv : validStartUp (w.ps (Ps.addrFlags c)) = true)
    (ok : Tmr → Bool) (hok : timersGood c ok = true) (rx' : Option Msg) :
    ∃ k, let ps := lossMem w (stepOp c (.process rx) w).2 k
      (node c ok ps [.process rx']).v.st = .active ∧ (node c ok ps [.process rx']).v.nick = w.ps (Ps.addrNickname c) ∧
      ∀ rx'' m', Takes c rx'' (node c ok ps [.process rx']) m' → segBeat m' crc →
        (node c ok ps [.process rx', .process rx'']).v.st = .active ∧ (node c ok ps [.process rx', .process rx'']).v.nick = w.ps (Ps.addrNickname c) ∧
        (node c ok ps [.process rx', .process rx'']).ps = ps := by
  obtain ⟨k, hk⟩ := (C114_memory hT hseg hb hne hp _).mpr (.inr (.inl rfl))
  refine ⟨k, ?_⟩
  rw [← hk]
  intro ps
  have a2 : Ps.addrFlags c.toCfg ≠ Ps.addrSegCrc c.toCfg := by
    unfold Ps.addrFlags Ps.sizeSegCrc; omega
  have a3 : Ps.addrNickname c.toCfg ≠ Ps.addrSegCrc c.toCfg := by
    unfold Ps.addrSegCrc Ps.sizeNickname; omega
  have ef : ps (Ps.addrFlags c) = w.ps (Ps.addrFlags c) := if_neg a2
  have en : ps (Ps.addrNickname c) = w.ps (Ps.addrNickname c) := if_neg a3
  have ec : ps (Ps.addrSegCrc c) = crc := if_pos rfl
  obtain ⟨h1, h2, h3, -⟩ := restart_active h ok hok ps (by rw [ef]; exact hv) (by rw [en]; exact hn) rx'
  refine ⟨h1, h2.trans en, fun rx'' m' hT' hb' => ?_⟩
  have hs := Time.C42_equal hT' hb' (by rw [h3]; exact ec)
  have s1 := hs .st (by decide)
  have s2 := hs .nick (by decide)
  have s3 := hs .ps (by decide)
  simp only [Comp.same] at s1 s2 s3
  exact ⟨s1.trans h1, (s2.trans h2).trans en, s3.trans h3⟩

/-! ### A concrete case -/

/-- The node has the nickname 5, and the CRC of the segment becomes 17. -/
def segOp : Op := .process (some (Ex.msg 0 1 0 [17]))

example : GoodCfg Ex.ctx ∧ Ex.ctx.hbSegment = true ∧ segBeat (Ex.msg 0 1 0 [17]) 17 ∧ exNode.ps (Ps.addrSegCrc Ex.ctx) ≠ 17 ∧ exNode.v.probe ≠ 0 ∧
    exNode.ps (Ps.addrNickname Ex.ctx) = 5 ∧ validStartUp (exNode.ps (Ps.addrFlags Ex.ctx)) = true ∧ timersGood Ex.ctx allOk = true ∧
    Ex.ctx.silent = false ∧ (exNode.ps (Ps.addrFlags Ex.ctx)).getLsbD 6 = true ∧ Takes Ex.ctx (some (Ex.msg 0 1 0 [17])) exNode (Ex.msg 0 1 0 [17]) :=
  ⟨exGood, by decide, ⟨rfl, rfl, by decide⟩, by decide +kernel, by decide +kernel, by decide +kernel, by decide +kernel, by decide, by decide, by decide +kernel,
    by decide +kernel, by decide +kernel, by decide⟩

-- Power lost before, between and behind the two writes; the node is switched on, and sees further heartbeats of the new segment.
example : (List.range 4).map (fun k =>
      let w := node Ex.ctx allOk (lossMem exNode (stepOp Ex.ctx segOp exNode).2 k) [.process none, segOp, segOp]
      (decide (w.v.st = .active), w.v.nick, w.ps (Ps.addrSegCrc Ex.ctx))) =
    [(false, 0xFF, 17), (true, 5, 17), (true, 5, 17), (false, 0xFF, 17)] := by
  decide +kernel

end Vscp.SegmentLoss
