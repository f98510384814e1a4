/-
C105: a node on the CAN bus (AVR example): framework, adapter, driver and controller together.
-/
import Verif.Spec.CanNode
import Verif.Props.Can
import Verif.Props.CanDrv
import Verif.Lemmas.Callout
import Verif.Lemmas.Cycle
import Verif.Props.Registers
import Verif.Props.Safety
import Verif.Props.AvrFw
import Verif.Props.LastWrite
import Verif.Lemmas.RegWrite

namespace Vscp.Driver.CanNode
open Vscp.Safety Vscp.Spec Vscp.Spec.CanNode Vscp.Spec.CanDrv Vscp.CanDrvProps
open Vscp.Driver.CanDrv (BusFrame)

/-! ### The adapter -/

theorem sendLoop_inv (f : CanDrv.Frame) (hf : Plain f) (hw : Nat → Nat → Nat) (k : Nat) (x : Drv) (h : Inv x) :
    ∃ r, sendLoop f hw k x = some r ∧ Inv r.2 ∧ r.2.2.taken = (if r.1 then x.2.taken ++ [f] else x.2.taken) ∧ r.2.2.stored = x.2.stored ∧ r.2.2.got = x.2.got ∧
      ((waiting x.1).length < 14 → r.1 = true) ∧ ∃ t, r.2.2.wire = x.2.wire ++ t := by
  induction hk : 3 - k generalizing k x with
  | zero =>
    obtain ⟨r, h1, h2, h3, h4⟩ := h.send f (hw k) hf
    rw [sendLoop]
    simp only [CanDrv.move, h1, Option.map_some]
    rcases h3 with h3 | h3
    · rw [if_pos h3]
      exact ⟨_, rfl, h2, by simp [h3], rfl, rfl, fun _ => rfl, _, rfl⟩
    · have h3' : ¬ r.1 = .ok := by rw [h3]; decide
      rw [if_neg h3', dif_neg (by omega)]
      refine ⟨_, rfl, h2, by simp [h3'], rfl, rfl, fun hl => ?_, _, rfl⟩
      have := h4 h3
      omega
  | succ d ih =>
    obtain ⟨r, h1, h2, h3, h4⟩ := h.send f (hw k) hf
    rw [sendLoop]
    simp only [CanDrv.move, h1, Option.map_some]
    rcases h3 with h3 | h3
    · rw [if_pos h3]
      exact ⟨_, rfl, h2, by simp [h3], rfl, rfl, fun _ => rfl, _, rfl⟩
    · have h3' : ¬ r.1 = .ok := by rw [h3]; decide
      simp only [if_neg h3'] at h2 ⊢
      by_cases hk3 : k + 1 < 3
      · rw [dif_pos hk3]
        obtain ⟨q, q1, q2, q3, q4, q5, q6, t, q7⟩ := ih (k + 1) _ h2 (by omega)
        refine ⟨q, q1, q2, q3, q4, q5, fun hl => ?_, r.2.2 ++ t, by rw [q7]; simp⟩
        have := h4 h3
        omega
      · rw [dif_neg hk3]
        refine ⟨_, rfl, h2, by simp, rfl, rfl, fun hl => ?_, _, rfl⟩
        have := h4 h3
        omega

/-- The frame the controller gets for an event. -/
def wireOf (m : Msg) : BusFrame := ⟨true, false, (Can.packId m).toNat % 2 ^ 29, m.size, payload m⟩

theorem toDrv_plain {m : Msg} {stack : Vector U8 8} {f : Can.Frame} (h : Can.writeFrame m stack = some f) : Plain (toDrv f) ∧ onBus (toDrv f) = wireOf m := by
  unfold Can.writeFrame at h
  split at h
  · rename_i h8
    cases h
    have e0 : ((1 : U8) ||| 0).getLsbD 0 = true := by decide
    have e1 : ((1 : U8) ||| 0).getLsbD 1 = false := by decide
    have e2 : ((1 : U8) ||| 0).getLsbD 2 = false := by decide
    simp only [toDrv, if_true, Bool.false_eq_true, if_false]
    refine ⟨⟨h8, fun _ => ⟨by simp only [e1]; decide, by simp only [e2]; decide⟩⟩, ?_⟩
    simp only [onBus, wireOf, e0, e1, if_true, Bool.false_eq_true, if_false, BusFrame.mk.injEq, true_and]
    unfold payload
    apply List.ext_getElem
    · simp
    · intro j h1 h2
      simp at h1
      have : j < m.size.toNat := by omega
      simp [this]
  · cases h

theorem wireOf_eq {m : Msg} (hp : m.prio.toNat < 8) (hc : m.cls.toNat < 512) : wireOf m = frameOf m := by
  unfold wireOf frameOf
  rw [CanProps.packId_toNat m hp hc, Nat.mod_eq_of_lt (CanProps.canId_lt m hp hc)]

theorem writeMessage_inv (m : Msg) (stack : Vector U8 8) (hw : Nat → Nat → Nat) (x : Drv) (h : Inv x) :
    ∃ r, writeMessage m stack hw x = some r ∧ Inv r.2 ∧
      r.2.2.taken.map onBus = (if r.1 then x.2.taken.map onBus ++ [wireOf m] else x.2.taken.map onBus) ∧
      r.2.2.stored = x.2.stored ∧ r.2.2.got = x.2.got ∧ (m.size.toNat ≤ 8 → (waiting x.1).length < 14 → r.1 = true) ∧
      (r.1 = true → m.size.toNat ≤ 8) ∧ ∃ t, r.2.2.wire = x.2.wire ++ t := by
  unfold writeMessage
  cases hf : Can.writeFrame m stack with
  | none =>
    refine ⟨_, rfl, h, rfl, rfl, rfl, fun h8 => ?_, fun e => (by cases e), [], by simp⟩
    unfold Can.writeFrame at hf
    rw [if_pos h8] at hf
    cases hf
  | some f =>
    obtain ⟨h1, h2⟩ := toDrv_plain hf
    obtain ⟨r, r1, r2, r3, r4, r5, r6, r7⟩ := sendLoop_inv (toDrv f) h1 hw 0 x h
    refine ⟨r, r1, r2, ?_, r4, r5, fun _ => r6, fun _ => ?_, r7⟩
    · rw [r3]; split <;> simp [h2]
    · unfold Can.writeFrame at hf
      split at hf
      · assumption
      · cases hf

theorem read_bound {old g : CanDrv.Frame} {s s' : CanDrv.State} (h : CanDrv.readFrame old s = some (.ok, g, s')) :
    g.id.toNat < (if g.flags.getLsbD 0 then 2 ^ 29 else 2 ^ 11) ∧ g.len.toNat ≤ 8 := by
  unfold CanDrv.readFrame at h
  dsimp only at h
  split at h
  · cases h
  · split at h
    · rename_i h8
      simp only [Option.some.injEq, Prod.mk.injEq, true_and] at h
      obtain ⟨rfl, -⟩ := h
      refine ⟨?_, h8⟩
      dsimp only
      have a1 := s.mobs[0].idt1.isLt
      have a2 := s.mobs[0].idt2.isLt
      have a3 := s.mobs[0].idt3.isLt
      have a4 := s.mobs[0].idt4.isLt
      have e5 : (((s.mobs[0].idt4 >>> 3) &&& 0x1F).setWidth 32 : U32).toNat = s.mobs[0].idt4.toNat / 8 := by
        rw [BitVec.toNat_setWidth, BitVec.toNat_and, show (0x1F : U8).toNat = 2 ^ 5 - 1 from rfl, Nat.and_two_pow_sub_one_eq_mod]
        simp only [BitVec.toNat_ushiftRight, Nat.shiftRight_eq_div_pow]
        omega
      have e3 : (((s.mobs[0].idt2 >>> 5) &&& 0x07).setWidth 32 : U32).toNat = s.mobs[0].idt2.toNat / 32 := by
        rw [BitVec.toNat_setWidth, BitVec.toNat_and, show (0x07 : U8).toNat = 2 ^ 3 - 1 from rfl, Nat.and_two_pow_sub_one_eq_mod]
        simp only [BitVec.toNat_ushiftRight, Nat.shiftRight_eq_div_pow]
        omega
      have f1 : ∀ q : U8, (q ||| 0x01).getLsbD 0 = true := by decide +kernel
      by_cases hx : s.mobs[0].cd &&& 0x10 ≠ 0
      · simp only [if_pos hx, f1, if_true, BitVec.toNat_add, e5, BitVec.toNat_shiftLeft, BitVec.toNat_setWidth, Nat.shiftLeft_eq]
        omega
      · have f2 : (if s.mobs[0].idt4 &&& 0x04 ≠ 0 then (0x02 : U8) else 0).getLsbD 0 = false := by split <;> decide
        simp only [if_neg hx, f2, Bool.false_eq_true, if_false, BitVec.toNat_add, e3, BitVec.toNat_shiftLeft, BitVec.toNat_setWidth, Nat.shiftLeft_eq]
        omega
    · cases h

theorem readMessage_inv (stack : CanDrv.Frame) (old : Msg) (x : Drv) (h : Inv x) :
    ∃ r, readMessage stack old x = some r ∧ Inv r.2 ∧ r.2.2.taken = x.2.taken ∧ r.2.2.wire = x.2.wire ∧ r.2.2.stored = x.2.stored ∧
      ((r.1 = none ∧ r.2.2.got = x.2.got ∧ x.2.stored = x.2.got.map onBus) ∨
        ∃ m g, r.1 = some m ∧ r.2.2.got = x.2.got ++ [g] ∧ Carries (onBus g) m ∧ m.size.toNat ≤ 8 ∧ x.2.stored = x.2.got.map onBus ++ [onBus g]) := by
  obtain ⟨⟨q, g, s'⟩, h1, h2, h3, h4⟩ := h.read stack
  unfold readMessage
  simp only [CanDrv.move, h1, Option.map_some]
  rcases h3 with h3 | h3
  · dsimp only at h3
    subst h3
    simp only [if_true] at h2 h1 ⊢
    obtain ⟨b1, b2⟩ := read_bound h1
    obtain ⟨m, m1, m2⟩ := CanProps.readMessage_some (ofDrv g) old b2
    obtain ⟨m3, m4⟩ := CanProps.readMessage_fields m1
    simp only [m1]
    have hlen : (ofDrv g).len = g.len := rfl
    have b3 : g.id.toNat < 2 ^ 29 := by
      split at b1 <;> omega
    refine ⟨_, rfl, h2, rfl, rfl, rfl, .inr ⟨m, g, rfl, rfl, ⟨?_, ?_, ?_, ?_, ?_⟩, by rw [m4, hlen]; exact b2, ?_⟩⟩
    · rw [m3.canId_eq b3]
      show g.id.toNat = (onBus g).id
      unfold onBus
      dsimp only
      split at b1 <;> rename_i hb
      · rw [if_pos hb, Nat.mod_eq_of_lt b1]
      · rw [if_neg hb, Nat.mod_eq_of_lt b1]
    · rw [m3.prio]; omega
    · rw [m3.cls]; omega
    · rw [m4]; rfl
    · intro hr
      have hr' : ¬ g.flags.getLsbD 1 = true := by
        intro e
        have : (onBus g).rtr = g.flags.getLsbD 1 := rfl
        rw [this, e] at hr
        cases hr
      have e : (onBus g).data = g.byte.toList.take g.len.toNat := by
        show (if g.flags.getLsbD 1 then [] else g.byte.toList.take g.len.toNat) = _
        rw [if_neg hr']
      rw [e]
      unfold payload
      rw [m4, hlen]
      apply List.ext_getElem
      · simp
      · intro j j1 j2
        simp at j1
        have := m2 j (by omega) (by rw [hlen]; omega)
        simp only [List.getElem_take, Vector.getElem_toList, this]
        rfl
    · rcases h.mob0 with ⟨-, e⟩ | ⟨_, b, -, -, -, e⟩
      · exact absurd (h4.2 e) (fun e => (by cases e))
      · rcases h2.mob0 with ⟨-, e'⟩ | ⟨_, b', -, -, -, e'⟩
        · simpa using e'
        · have := congrArg List.length e
          have := congrArg List.length e'
          simp at *
          omega
  · dsimp only at h3
    subst h3
    have h3' : ¬ CanDrv.Ret.empty = .ok := by decide
    simp only [if_neg h3'] at h2 ⊢
    exact ⟨_, rfl, h2, rfl, rfl, rfl, .inl ⟨rfl, rfl, h4.1 rfl⟩⟩

/-! ### Calls of the framework -/

/-- What holds between the events the adapter took (`l`) and driver and controller. -/
structure Sends (l : List Msg) (x : Drv) : Prop where
  inv : Inv x
  taken : x.2.taken.map onBus = l.map wireOf

theorem taken_append (l r : List Out) : taken (l ++ r) = taken l ++ taken r := by simp [taken]

theorem feed_inv (a : Around) (n : Nat) (t : List Out) (l : List Msg) (x : Drv) (h : Sends l x) :
    feed a n t x = .impossible ∨ ∃ y, feed a n t x = .ok y ∧ Sends (l ++ taken t) y ∧ y.2.stored = x.2.stored ∧ y.2.got = x.2.got ∧ ∃ q, y.2.wire = x.2.wire ++ q := by
  induction t generalizing n l x with
  | nil => exact .inr ⟨x, rfl, by simpa [taken] using h, rfl, rfl, [], by simp⟩
  | cons o t ih =>
    have other : (∀ m r, o ≠ .tx m r) → feed a n (o :: t) x = feed a (n + 1) t x ∧ taken (o :: t) = taken t := by
      intro hne
      cases o <;> first | exact ⟨rfl, rfl⟩ | exact absurd rfl (hne _ _)
    by_cases ho : ∃ m r, o = .tx m r
    · obtain ⟨m, r, rfl⟩ := ho
      obtain ⟨⟨r', y⟩, h1, h2, h3, h4, h5, -, -, q, h6⟩ := writeMessage_inv m (a.wstack n) (a.hw n) x h.inv
      simp only [feed, h1]
      by_cases hr : r' = r
      · subst hr
        rw [if_pos rfl]
        dsimp only at h2 h3 h4 h5 h6
        have hs : Sends (l ++ if r' then [m] else []) y := by
          refine ⟨h2, ?_⟩
          rw [h3, h.taken]
          cases r' <;> simp
        have ht : taken (Out.tx m r' :: t) = (if r' then [m] else []) ++ taken t := by
          cases r' <;> rfl
        rw [ht, ← List.append_assoc]
        rcases ih (n + 1) _ y hs with e | ⟨z, z1, z2, z3, z4, q', z5⟩
        · exact .inl e
        · exact .inr ⟨z, z1, z2, z3.trans h4, z4.trans h5, q ++ q', by rw [z5, h6]; simp⟩
      · rw [if_neg hr]
        exact .inl rfl
    · obtain ⟨e1, e2⟩ := other (fun m r e => ho ⟨m, r, e⟩)
      rw [e1, e2]
      exact ih (n + 1) l x h

/-- The state of a node at any point of a history. -/
structure Good (c : Ctx) (n : Node) : Prop where
  lb : LbOk c n.w
  ub : n.w.ub = false
  sends : Sends (taken n.w.out) n.x
  len : n.heard.length = n.x.2.got.length
  heard : ∀ (i : Nat) (h : i < n.heard.length), Carries (onBus (n.x.2.got[i]'(len ▸ h))) n.heard[i]

theorem frames_taken {t : List Out} (h : frames t = []) : taken t = [] := by
  unfold frames at h
  unfold taken
  rw [List.filterMap_eq_nil_iff] at h ⊢
  intro o ho
  have := h o ho
  cases o <;> simp_all

theorem boot_good {c : Ctx} (hc : GoodCfg c) (cb : Callbacks) (ok : Tmr → Bool) (ps : Nat → U8) (s : CanDrv.State) : Good c (boot c cb ok ps s) := by
  have e : (boot c cb ok ps s).w = (Core.init c ok (powerUp ps)).2 := rfl
  obtain ⟨h1, h2⟩ := init_lbOk hc.lb ok (powerUp ps)
  obtain ⟨t, t1, t2⟩ := (Foot.coreInit (c := c) (bad := False) ok (powerUp ps)).quiet (by decide) (by simp)
  refine ⟨e ▸ h1, by rw [e, h2]; rfl, ⟨inv_start s, ?_⟩, rfl, fun i h => absurd h (by simp [boot])⟩
  rw [e, t1]
  have : (powerUp ps).out = [] := rfl
  rw [this, List.nil_append, frames_taken t2]
  rfl

theorem callFw_good {c : Ctx} (hc : GoodCfg c) {cb : Callbacks} (hcb : CbOk cb) (a : Around) {op : Op} (hop : op.Ok) {n : Node} (h : Good c n) :
    callFw c cb a op n = .impossible ∨ ∃ n', callFw c cb a op n = .ok n' ∧ Good c n' ∧ n'.w = (stepOpC c cb op n.w).2 ∧ n'.heard = n.heard ∧
      n'.x.2.stored = n.x.2.stored ∧ n'.x.2.got = n.x.2.got ∧ ∃ q, n'.x.2.wire = n.x.2.wire ++ q := by
  obtain ⟨L, -, hs⟩ := stepOpC_steps hcb hop h.lb
  obtain ⟨h1, h2⟩ := hs.lbOk hc.notBad hc.lb h.lb
  obtain ⟨t, ht, -⟩ := hs.outs
  unfold callFw
  dsimp only
  rw [ht, List.drop_left]
  rcases feed_inv a n.w.out.length t _ _ h.sends with e | ⟨y, y1, y2, y3, y4, y5⟩
  · rw [e]; exact .inl rfl
  · rw [y1]
    refine .inr ⟨_, rfl, ⟨h1, h2.trans h.ub, ?_, h.len.trans (by rw [y4]), ?_⟩, rfl, rfl, y3, y4, y5⟩
    · show Sends (taken (stepOpC c cb op n.w).2.out) y
      rw [ht, taken_append]
      exact y2
    · intro i hi
      simp only [y4]
      exact h.heard i hi

theorem cycle_good {c : Ctx} (hc : GoodCfg c) {cb : Callbacks} (hcb : CbOk cb) (a : Around) {n : Node} (h : Good c n) :
    move c cb a n .cycle = .impossible ∨ ∃ n' m, move c cb a n .cycle = .ok n' ∧ Good c n' ∧ n'.w = (stepOpC c cb (.process m) n.w).2 ∧
      n'.heard = n.heard ++ m.toList ∧ n'.x.2.stored = n.x.2.stored ∧ n'.x.2.stored = n'.x.2.got.map onBus ∧ (Op.process m).Ok ∧ ∃ q, n'.x.2.wire = n.x.2.wire ++ q := by
  obtain ⟨⟨m, x⟩, r1, r2, r3, r4, r5, r6⟩ := readMessage_inv (a.rstack n.w.out.length) (a.old n.w.out.length) n.x h.sends.inv
  dsimp only at r2 r3 r4 r5 r6
  simp only [move, r1]
  have hs : Sends (taken n.w.out) x := ⟨r2, by rw [r3]; exact h.sends.taken⟩
  have hg : Good c { n with x := x, heard := n.heard ++ m.toList } ∧ (∀ m', m = some m' → m'.size.toNat ≤ 8) ∧ x.2.stored = x.2.got.map onBus := by
    rcases r6 with ⟨rfl, e, e'⟩ | ⟨m, g, rfl, e, hcar, h8, e'⟩
    · refine ⟨⟨h.lb, h.ub, hs, ?_, ?_⟩, fun m' e => (by cases e), by rw [e, r5, e']⟩
      · simpa [e] using h.len
      · intro i hi
        simp only [Option.toList_none, List.append_nil, e] at hi ⊢
        exact h.heard i hi
    · refine ⟨⟨h.lb, h.ub, hs, ?_, ?_⟩, fun m' e => (by cases e; exact h8), by rw [e, r5, e']; simp⟩
      · simpa [e] using h.len
      · intro i hi
        simp only [Option.toList_some, e, List.getElem_append]
        by_cases hlt : i < n.heard.length
        · rw [dif_pos hlt, dif_pos (h.len ▸ hlt)]
          exact h.heard i hlt
        · rw [dif_neg hlt, dif_neg (h.len ▸ hlt)]
          simpa using hcar
  obtain ⟨hg, h8, hst⟩ := hg
  have hop : (Op.process m).Ok := by
    cases m with
    | none => exact trivial
    | some m => exact h8 m rfl
  rcases callFw_good hc hcb a hop hg with e | ⟨n', e1, e2, e3, e4, e5, e6, q, e7⟩
  · exact .inl e
  · exact .inr ⟨n', m, e1, e2, e3, e4, e5.trans r5, by rw [e5, e6]; exact hst, hop, q, by rw [e7]; show x.2.wire ++ q = _; rw [r4]⟩

theorem Ok.op {op : Op} (h : CanNode.Ok (.call op)) : op.Ok := by
  rcases h with h | ⟨ms, rfl⟩
  · cases op <;> first | exact trivial | exact absurd h id
  · exact trivial

theorem rx_good {c : Ctx} {n : Node} (h : Good c n) (b : BusFrame) (hb : Valid b) :
    Good c { n with x := ((CanDrv.rx b n.x.1).1, if (CanDrv.rx b n.x.1).2 then { n.x.2 with stored := n.x.2.stored ++ [b] } else n.x.2) } ∧
      ((CanDrv.rx b n.x.1).2 = true ↔ n.x.2.stored = n.x.2.got.map onBus) := by
  obtain ⟨h1, h2⟩ := h.sends.inv.rx b hb
  have e1 : ∀ r : Bool, (if r then { n.x.2 with stored := n.x.2.stored ++ [b] } else n.x.2).got = n.x.2.got := by intro r; cases r <;> rfl
  have e2 : ∀ r : Bool, (if r then { n.x.2 with stored := n.x.2.stored ++ [b] } else n.x.2).taken = n.x.2.taken := by intro r; cases r <;> rfl
  refine ⟨⟨h.lb, h.ub, ⟨h1, by simp only [e2]; exact h.sends.taken⟩, h.len.trans (by rw [e1]), fun i hi => ?_⟩, h2⟩
  simp only [e1]
  exact h.heard i hi

theorem tx_good {c : Ctx} {n : Node} (h : Good c n) :
    Good c { n with x := ((CanDrv.tx n.x.1).1, { n.x.2 with wire := n.x.2.wire ++ (CanDrv.tx n.x.1).2.toList }) } :=
  ⟨h.lb, h.ub, ⟨h.sends.inv.tx.1, h.sends.taken⟩, h.len, h.heard⟩

theorem move_good {c : Ctx} (hc : GoodCfg c) {cb : Callbacks} (hcb : CbOk cb) (a : Around) {n : Node} (h : Good c n) (mv : Move) (hm : Spec.CanNode.Ok mv) :
    move c cb a n mv = .impossible ∨ ∃ n', move c cb a n mv = .ok n' ∧ Good c n' := by
  cases mv with
  | cycle =>
    rcases cycle_good hc hcb a h with e | ⟨n', m, e1, e2, -⟩
    · exact .inl e
    · exact .inr ⟨n', e1, e2⟩
  | call op =>
    rcases callFw_good hc hcb a (Ok.op hm) h with e | ⟨n', e1, e2, -⟩
    · exact .inl e
    · exact .inr ⟨n', e1, e2⟩
  | rx b => exact .inr ⟨_, rfl, (rx_good h b hm).1⟩
  | tx => exact .inr ⟨_, rfl, tx_good h⟩

theorem run_good {c : Ctx} (hc : GoodCfg c) {cb : Callbacks} (hcb : CbOk cb) (a : Around) : ∀ (l : List Move) {n : Node}, Good c n → (∀ mv ∈ l, Spec.CanNode.Ok mv) →
    run c cb a l n = .impossible ∨ ∃ n', run c cb a l n = .ok n' ∧ Good c n'
  | [], n, h, _ => .inr ⟨n, rfl, h⟩
  | mv :: l, n, h, hl => by
    rcases move_good hc hcb a h mv (hl mv (List.mem_cons_self ..)) with e | ⟨n', e1, e2⟩
    · left; simp only [run, e]
    · simp only [run, e1]
      exact run_good hc hcb a l e2 fun mv h => hl mv (List.mem_cons_of_mem _ h)

theorem steps_fit {c : Ctx} {bad : Prop} {A : List Act} (hA : ∀ m, Act.userTx m ∈ A → m.prio.toNat < 8 ∧ m.cls.toNat < 512) {w w' : W} (h : Steps c bad A w w') :
    ∃ t, w'.out = w.out ++ t ∧ ∀ m r, .tx m r ∈ t → m.prio.toNat < 8 ∧ m.cls.toNat < 512 := by
  refine h.rel (R := fun w w' => ∃ t, w'.out = w.out ++ t ∧ ∀ m r, .tx m r ∈ t → m.prio.toNat < 8 ∧ m.cls.toNat < 512) (fun w => ⟨[], by simp, by simp⟩) ?_ ?_
  · rintro w w' w'' ⟨t, ht, hf⟩ ⟨t', ht', hf'⟩
    refine ⟨t ++ t', by rw [ht', ht, List.append_assoc], fun m r hm => ?_⟩
    rcases List.mem_append.1 hm with hm | hm
    · exact hf m r hm
    · exact hf' m r hm
  · intro b hb w w' hs
    have key : ∀ m : Msg, m.prio.toNat < 8 ∧ m.cls.toNat < 512 →
        ∃ t, (Transport.writeMessage c m w).2.out = w.out ++ t ∧ ∀ m r, .tx m r ∈ t → m.prio.toNat < 8 ∧ m.cls.toNat < 512 := by
      intro m hf
      obtain ⟨tp, ub, t, e, ht⟩ := writeMessage_frame c m w
      refine ⟨t, by rw [e], fun m' r hm => ?_⟩
      rcases ht with rfl | ⟨rfl, -⟩
      · simp only [List.mem_singleton, Out.tx.injEq] at hm
        rw [hm.1]
        exact hf
      · cases hm
    by_cases e1 : b = .tx
    · subst e1
      obtain ⟨m, -, hf, -, rfl⟩ := hs
      exact key m hf.2
    · by_cases e2 : ∃ m, b = .userTx m
      · obtain ⟨m, rfl⟩ := e2
        cases hs
        exact key m (hA m hb)
      · obtain ⟨t, ht, hq⟩ := hs.quiet e1 (fun m e => e2 ⟨m, e⟩)
        refine ⟨t, ht, fun m r hm => ?_⟩
        exfalso
        unfold frames at hq
        rw [List.filterMap_eq_nil_iff] at hq
        exact absurd (hq _ hm) (by simp)

theorem stepOpC_fits {c : Ctx} {cb : Callbacks} (hcb : CbOk cb) (hfit : ∀ m, Vscp.Sends cb m → m.prio.toNat < 8 ∧ m.cls.toNat < 512) {op : Op} (hop : op.Ok)
    (ho : ∀ m, op = .sendEvent m → m.prio.toNat < 8 ∧ m.cls.toNat < 512) {w : W} (hlb : LbOk c w) (hw : ∀ m r, .tx m r ∈ w.out → m.prio.toNat < 8 ∧ m.cls.toNat < 512) :
    ∀ m r, .tx m r ∈ (stepOpC c cb op w).2.out → m.prio.toNat < 8 ∧ m.cls.toNat < 512 := by
  obtain ⟨L, hL, hs⟩ := stepOpC_steps hcb hop hlb
  obtain ⟨t, ht, hf⟩ := steps_fit (fun m hm => by
    rcases List.mem_append.1 hm with hm | hm
    · exact absurd hm (nodeActs_user m)
    · exact (hL m (by simpa using hm)).elim (ho m) (hfit m)) hs
  intro m r hm
  rw [ht] at hm
  rcases List.mem_append.1 hm with hm | hm
  · exact hw m r hm
  · exact hf m r hm

theorem boot_fits (c : Ctx) (cb : Callbacks) (ok : Tmr → Bool) (ps : Nat → U8) (s : CanDrv.State) :
    ∀ m r, .tx m r ∈ (boot c cb ok ps s).w.out → m.prio.toNat < 8 ∧ m.cls.toNat < 512 := by
  intro m r hm
  have e : (boot c cb ok ps s).w = (Core.init c ok (powerUp ps)).2 := rfl
  obtain ⟨t, t1, t2⟩ := (Foot.coreInit (c := c) (bad := False) ok (powerUp ps)).quiet (by decide) (by simp)
  have h0 : (powerUp ps).out = [] := rfl
  rw [e, t1, h0, List.nil_append] at hm
  unfold frames at t2
  rw [List.filterMap_eq_nil_iff] at t2
  exact absurd (t2 _ hm) (by simp)

theorem run_fits {c : Ctx} (hc : GoodCfg c) {cb : Callbacks} (hcb : CbOk cb) (a : Around) (hfit : ∀ m, Vscp.Sends cb m → m.prio.toNat < 8 ∧ m.cls.toNat < 512) :
    ∀ (l : List Move) {n n' : Node}, Good c n → (∀ mv ∈ l, Spec.CanNode.Ok mv) → (∀ m, .call (.sendEvent m) ∈ l → m.prio.toNat < 8 ∧ m.cls.toNat < 512) →
      (∀ m r, .tx m r ∈ n.w.out → m.prio.toNat < 8 ∧ m.cls.toNat < 512) → run c cb a l n = .ok n' → ∀ m r, .tx m r ∈ n'.w.out → m.prio.toNat < 8 ∧ m.cls.toNat < 512
  | [], n, n', _, _, _, hw, e => by cases e; exact hw
  | mv :: l, n, n', h, hl, hs, hw, e => by
    have hmv := hl mv (List.mem_cons_self ..)
    have hl' : ∀ mv ∈ l, Spec.CanNode.Ok mv := fun mv h => hl mv (List.mem_cons_of_mem _ h)
    have hs' : ∀ m, .call (.sendEvent m) ∈ l → m.prio.toNat < 8 ∧ m.cls.toNat < 512 := fun m h => hs m (List.mem_cons_of_mem _ h)
    cases mv with
    | cycle =>
      rcases cycle_good hc hcb a h with e' | ⟨n1, m, e1, e2, e3, -, -, -, hop, -⟩
      · simp only [run, e'] at e; cases e
      · simp only [run, e1] at e
        exact run_fits hc hcb a hfit l e2 hl' hs' (by rw [e3]; exact stepOpC_fits hcb hfit hop (fun m e => (by cases e)) h.lb hw) e
    | call op =>
      rcases callFw_good hc hcb a (Ok.op hmv) h with e' | ⟨n1, e1, e2, e3, -⟩
      · simp only [run, move, e'] at e; cases e
      · simp only [run, move, e1] at e
        refine run_fits hc hcb a hfit l e2 hl' hs' (by
          rw [e3]
          exact stepOpC_fits hcb hfit (Ok.op hmv) (fun m e => hs m (e ▸ List.mem_cons_self ..)) h.lb hw) e
    | rx b => exact run_fits hc hcb a hfit l (rx_good h b hmv).1 hl' hs' hw e
    | tx => exact run_fits hc hcb a hfit l (tx_good h) hl' hs' hw e

/-- C105: whatever frames are on the bus and whatever the application does, the behaviour of the node is defined, from the registers of the controller to the framework. -/
theorem C105_defined {c : Ctx} (hc : GoodCfg c) {cb : Callbacks} (hcb : CbOk cb) (a : Around) (ok : Tmr → Bool) (ps : Nat → U8) (s : CanDrv.State)
    (l : List Move) (hl : ∀ mv ∈ l, Spec.CanNode.Ok mv) :
    run c cb a l (boot c cb ok ps s) ≠ .ub ∧ ∀ n, run c cb a l (boot c cb ok ps s) = .ok n → n.w.ub = false := by
  rcases run_good hc hcb a l (boot_good hc cb ok ps s) hl with e | ⟨n, e, h⟩
  · rw [e]; exact ⟨fun h => (by cases h), fun n h => (by cases h)⟩
  · rw [e]; exact ⟨fun h => (by cases h), fun n' h' => (by cases h'; exact h.ub)⟩

section
variable {c : Ctx} (hc : GoodCfg c) {cb : Callbacks} (hcb : CbOk cb) (a : Around) (ok : Tmr → Bool) (ps : Nat → U8) (s : CanDrv.State)
  (l : List Move) (hl : ∀ mv ∈ l, Spec.CanNode.Ok mv) {n : Node} (hn : run c cb a l (boot c cb ok ps s) = .ok n)
include hc hcb hl hn

theorem node_good : Good c n := by
  rcases run_good hc hcb a l (boot_good hc cb ok ps s) hl with e | ⟨n', e, h⟩
  · rw [e] at hn; cases hn
  · rw [e] at hn; cases hn; exact h

/-- C105: the events the framework gets are the frames the controller has taken from the bus, in this order, each once; at most one frame is not yet delivered. -/
theorem C105_in : n.heard.length ≤ n.x.2.stored.length ∧ n.x.2.stored.length ≤ n.heard.length + 1 ∧
    ∀ (i : Nat) (h : i < n.heard.length) (h' : i < n.x.2.stored.length), Carries n.x.2.stored[i] n.heard[i] := by
  have h := node_good hc hcb a ok ps s l hl hn
  have key : ∃ r : List BusFrame, n.x.2.stored = n.x.2.got.map onBus ++ r ∧ r.length ≤ 1 := by
    rcases h.sends.inv.mob0 with ⟨-, e⟩ | ⟨_, b, -, -, -, e⟩
    · exact ⟨[], by simpa using e, by simp⟩
    · exact ⟨[b], e, by simp⟩
  obtain ⟨r, e, hr⟩ := key
  have hlen := congrArg List.length e
  have hl' := h.len
  simp only [List.length_append, List.length_map] at hlen
  refine ⟨by omega, by omega, fun i hi hi' => ?_⟩
  have : n.x.2.stored[i] = onBus (n.x.2.got[i]'(h.len ▸ hi)) := by
    simp only [e]
    rw [List.getElem_append_left (by simp; omega)]
    simp
  rw [this]
  exact h.heard i hi

/-- C105: the frames of the node on the bus are the events its adapter took from the framework, each once and unchanged; at most 14 of them are still waiting for the bus.
The events which the application sends have a priority and a class which fit in the identifier; those of the framework always do. -/
theorem C105_out (hfit : ∀ m, Vscp.Sends cb m ∨ .call (.sendEvent m) ∈ l → m.prio.toNat < 8 ∧ m.cls.toNat < 512) :
    ∃ waiting, (n.x.2.wire ++ waiting).Perm ((taken n.w.out).map frameOf) ∧ waiting.length ≤ 14 := by
  have h := node_good hc hcb a ok ps s l hl hn
  have hfit : ∀ m ∈ taken n.w.out, m.prio.toNat < 8 ∧ m.cls.toNat < 512 := by
    intro m hm
    unfold taken at hm
    obtain ⟨o, ho, e⟩ := List.mem_filterMap.1 hm
    cases o <;> first | (cases e; done) | skip
    rename_i m' r
    cases r
    · cases e
    cases e
    exact run_fits hc hcb a (fun m hm => hfit m (.inl hm)) l (boot_good hc cb ok ps s) hl (fun m hm => hfit m (.inr hm)) (boot_fits c cb ok ps s) hn m true ho
  refine ⟨_, ?_, h.sends.inv.waiting_le⟩
  have := h.sends.inv.perm
  rw [h.sends.taken] at this
  have e : (taken n.w.out).map wireOf = (taken n.w.out).map frameOf := List.map_congr_left fun m hm => wireOf_eq (hfit m hm).1 (hfit m hm).2
  rwa [e] at this

end

theorem run_calls {c : Ctx} (hc : GoodCfg c) {cb : Callbacks} (hcb : CbOk cb) (a : Around) : ∀ (l : List Move) {n n' : Node}, Good c n → (∀ mv ∈ l, Spec.CanNode.Ok mv) →
    run c cb a l n = .ok n' → ∃ rs, rs.length = cyclesOf l ∧ n'.heard = n.heard ++ rs.filterMap id ∧ n'.w = runOpsC c cb (callsOf l rs) n.w ∧ ∀ op ∈ callsOf l rs, op.Ok
  | [], n, n', h, _, e => by cases e; exact ⟨[], rfl, by simp, rfl, fun _ h => (by cases h)⟩
  | mv :: l, n, n', h, hl, e => by
    have hl' : ∀ mv ∈ l, Spec.CanNode.Ok mv := fun mv h => hl mv (List.mem_cons_of_mem _ h)
    have hmv := hl mv (List.mem_cons_self ..)
    cases mv with
    | cycle =>
      rcases cycle_good hc hcb a h with e' | ⟨n1, m, e1, e2, e3, e4, -, -, hop, -⟩
      · simp only [run, e'] at e; cases e
      · simp only [run, e1] at e
        obtain ⟨rs, r1, r2, r3, r4⟩ := run_calls hc hcb a l e2 hl' e
        refine ⟨m :: rs, by simp [cyclesOf, r1], ?_, ?_, ?_⟩
        · rw [r2, e4]
          cases m <;> simp
        · rw [r3, e3]; rfl
        · intro op ho
          rcases List.mem_cons.1 ho with rfl | ho
          · exact hop
          · exact r4 op ho
    | call op =>
      rcases callFw_good hc hcb a (Ok.op hmv) h with e' | ⟨n1, e1, e2, e3, e4, -⟩
      · simp only [run, move, e'] at e; cases e
      · simp only [run, move, e1] at e
        obtain ⟨rs, r1, r2, r3, r4⟩ := run_calls hc hcb a l e2 hl' e
        refine ⟨rs, r1, by rw [r2, e4], by rw [r3, e3]; rfl, ?_⟩
        intro o ho
        rcases List.mem_cons.1 ho with rfl | ho
        · exact Ok.op hmv
        · exact r4 o ho
    | rx b =>
      obtain ⟨rs, r1, r2, r3, r4⟩ := run_calls hc hcb a l (rx_good h b hmv).1 hl' e
      exact ⟨rs, r1, r2, r3, r4⟩
    | tx =>
      obtain ⟨rs, r1, r2, r3, r4⟩ := run_calls hc hcb a l (tx_good h) hl' e
      exact ⟨rs, r1, r2, r3, r4⟩

/-- C105: a node on the bus is a node of the framework properties: its framework has made exactly the cycles and calls of the history, with the events heard as what the adapter
delivered in the cycles.  So all properties of histories with callbacks hold for it. -/
theorem C105_history {c : Ctx} (hc : GoodCfg c) {cb : Callbacks} (hcb : CbOk cb) (a : Around) (ok : Tmr → Bool) (ps : Nat → U8) (s : CanDrv.State)
    (l : List Move) (hl : ∀ mv ∈ l, Spec.CanNode.Ok mv) {n : Node} (hn : run c cb a l (boot c cb ok ps s) = .ok n) :
    ∃ rs, rs.length = cyclesOf l ∧ n.heard = rs.filterMap id ∧ n.w = runOpsC c cb (.init ok :: callsOf l rs) (powerUp ps) ∧ ∀ op ∈ callsOf l rs, op.Ok := by
  obtain ⟨rs, h1, h2, h3, h4⟩ := run_calls hc hcb a l (boot_good hc cb ok ps s) hl hn
  exact ⟨rs, h1, h2, h3, h4⟩

theorem run_paced {c : Ctx} (hc : GoodCfg c) {cb : Callbacks} (hcb : CbOk cb) (a : Around) : ∀ (l : List Move) {n n' : Node} (unread : Bool), Good c n → (∀ mv ∈ l, Spec.CanNode.Ok mv) →
    Paced unread l → (unread = false → n.x.2.stored = n.x.2.got.map onBus) → run c cb a l n = .ok n' → n'.x.2.stored = n.x.2.stored ++ offered l
  | [], n, n', _, _, _, _, _, e => by cases e; simp [offered]
  | mv :: l, n, n', u, h, hl, hp, hu, e => by
    have hl' : ∀ mv ∈ l, Spec.CanNode.Ok mv := fun mv h => hl mv (List.mem_cons_of_mem _ h)
    have hmv := hl mv (List.mem_cons_self ..)
    cases mv with
    | cycle =>
      rcases cycle_good hc hcb a h with e' | ⟨n1, m, e1, e2, -, -, e3, e4, -⟩
      · simp only [run, e'] at e; cases e
      · simp only [run, e1] at e
        rw [run_paced hc hcb a l false e2 hl' hp (fun _ => e4) e, e3]
        rfl
    | call op =>
      have e' : run c cb a (.call op :: l) n = match callFw c cb a op n with | .ok n => run c cb a l n | .ub => .ub | .impossible => .impossible := rfl
      rcases callFw_good hc hcb a (Ok.op hmv) h with e1 | ⟨n1, e1, e2, -, -, e3, e4, -⟩
      · rw [e', e1] at e; cases e
      · rw [e', e1] at e
        have hp' : Paced u l := by cases u <;> exact hp
        rw [run_paced hc hcb a l u e2 hl' hp' (fun hu' => by rw [e3, e4]; exact hu hu') e, e3]
        rfl
    | rx b =>
      obtain ⟨g1, g2⟩ := rx_good h b hmv
      have hp' : u = false ∧ Paced true l := hp
      have hr := g2.2 (hu hp'.1)
      have e' : run c cb a l { n with x := ((CanDrv.rx b n.x.1).1, if (CanDrv.rx b n.x.1).2 then { n.x.2 with stored := n.x.2.stored ++ [b] } else n.x.2) } = .ok n' := e
      rw [run_paced hc hcb a l true g1 hl' hp'.2 (fun h => (by cases h)) e']
      simp only [hr, if_true, offered]
      simp
    | tx =>
      have e' : run c cb a l { n with x := ((CanDrv.tx n.x.1).1, { n.x.2 with wire := n.x.2.wire ++ (CanDrv.tx n.x.1).2.toList }) } = .ok n' := e
      have hp' : Paced u l := by cases u <;> exact hp
      have := run_paced hc hcb a l u (tx_good h) hl' hp' (fun hu' => hu hu') e'
      exact this

/-- C105: no frame is lost if the framework runs at least once between two frames. -/
theorem C105_paced {c : Ctx} (hc : GoodCfg c) {cb : Callbacks} (hcb : CbOk cb) (a : Around) (ok : Tmr → Bool) (ps : Nat → U8) (s : CanDrv.State)
    (l : List Move) (hl : ∀ mv ∈ l, Spec.CanNode.Ok mv) (hp : Paced false l) {n : Node} (hn : run c cb a l (boot c cb ok ps s) = .ok n) :
    n.x.2.stored = offered l := by
  rw [run_paced hc hcb a l false (boot_good hc cb ok ps s) hl hp (fun _ => rfl) hn]
  rfl

/-! ### The answer to a request -/

theorem value_pre (c : Ctx) (rx : Option Msg) (w : W) (r : Reg) : Reg.value c (preProcess c rx w).2 r = Reg.value c w r := by
  obtain ⟨rxv, ep, lg, x, hp⟩ := preProcess_frame c rx w
  obtain ⟨tp, ub, hr⟩ := readMessage_frame' c rx w
  rw [hp, hr]
  cases r <;> first
    | rfl
    | (simp only [Reg.value, DevData.getManu, DevData.getManuSub, DevData.getFam, DevData.getType, DevData.getGuid, DevData.getMdf,
        Ps.readManu, Ps.readManuSub, Ps.readFam, Ps.readType, Ps.readGuid, Ps.readMdf, Ps.readIdx]
       repeat' split
       all_goals rfl)

/-- A cycle of an active node with a protocol event: what the handler of the event sends are the first frames of the cycle. -/
theorem answer_cycle {c : Ctx} {cb : Callbacks} (hcb : CbOk cb) (hlb : c.loopback = false) (hpn : c.protoNotify = false) {w : W} (ha : w.v.st = .active)
    {m : Msg} (hm : m.cls = 0) {t1 : List Out} (ht : (Registers.handle c m (preProcess c (some m) w).2).out = w.out ++ t1) :
    ∃ t2, (stepOpC c cb (.process (some m)) w).2.out = w.out ++ t1 ++ t2 := by
  have hr : (preProcess c (some m) w).1 = some m := by
    rw [preProcess_rx]
    unfold Transport.readMessage
    rw [if_neg (by rw [hlb]; decide)]
    rfl
  have hst : (preProcess c (some m) w).2.v.st = .active := (pre_same c (some m) w .st (by decide)).trans ha
  obtain ⟨L, -, hs⟩ := protocol_cycle hcb hpn hst hr hm
  obtain ⟨t2, ht2, -⟩ := hs.outs
  exact ⟨t2, ht2.trans (congrArg (· ++ t2) ht)⟩

theorem feed_append (a : Around) (n : Nat) (t t' : List Out) (x : Drv) :
    feed a n (t ++ t') x = match feed a n t x with | .ok y => feed a (n + t.length) t' y | .ub => .ub | .impossible => .impossible := by
  induction t generalizing n x with
  | nil => rfl
  | cons o t ih =>
    by_cases ho : ∃ m r, o = .tx m r
    · obtain ⟨m, r, rfl⟩ := ho
      simp only [List.cons_append, feed]
      cases writeMessage m (a.wstack n) (a.hw n) x with
      | none => rfl
      | some q =>
        obtain ⟨r', y⟩ := q
        dsimp only
        split
        · rw [ih, List.length_cons, Nat.add_assoc, Nat.add_comm 1]
        · rfl
    · have other : ∀ t, feed a n (o :: t) x = feed a (n + 1) t x := by
        intro t
        cases o <;> first | rfl | exact absurd ⟨_, _, rfl⟩ ho
      rw [List.cons_append, other, other, ih, List.length_cons, Nat.add_assoc, Nat.add_comm 1]

theorem feed_quiet (a : Around) (n : Nat) (t : List Out) (x : Drv) (h : frames t = []) : feed a n t x = .ok x := by
  induction t generalizing n with
  | nil => rfl
  | cons o t ih =>
    cases o <;> first | exact ih (n + 1) h | skip
    simp [frames] at h

/-- The controller sends what waits. -/
theorem drainX (c : Ctx) (cb : Callbacks) (a : Around) : ∀ (k : Nat) {n n' : Node}, Inv n.x → run c cb a (List.replicate k .tx) n = .ok n' →
    Inv n'.x ∧ (waiting n'.x.1).length = (waiting n.x.1).length - k ∧ n'.x.2.taken = n.x.2.taken ∧ n'.w = n.w
  | 0, n, n', h, e => by cases e; exact ⟨h, rfl, rfl, rfl⟩
  | k + 1, n, n', h, e => by
    obtain ⟨a1, a2, a3⟩ := h.tx
    obtain ⟨h1, h2, h3⟩ := drainX c cb a k (n := { n with x := ((CanDrv.tx n.x.1).1, { n.x.2 with wire := n.x.2.wire ++ (CanDrv.tx n.x.1).2.toList }) }) a1 e
    refine ⟨h1, ?_, h3⟩
    rw [h2]
    dsimp only
    rw [← a3]
    omega

theorem run_append (c : Ctx) (cb : Callbacks) (a : Around) (l l' : List Move) (n : Node) :
    run c cb a (l ++ l') n = match run c cb a l n with | .ok n => run c cb a l' n | .ub => .ub | .impossible => .impossible := by
  induction l generalizing n with
  | nil => rfl
  | cons mv l ih =>
    simp only [List.cons_append, run]
    cases move c cb a n mv with
    | ok n => exact ih n
    | _ => rfl

theorem protocol_valid {prio typ origin : U8} {hard : Bool} {data : List U8} (hp : prio.toNat < 8) (h8 : data.length ≤ 8) : Valid (protocol prio hard typ origin data) := by
  have := origin.isLt
  have := typ.isLt
  have hh : hard.toNat < 2 := by cases hard <;> decide
  have hl : (BitVec.ofNat 8 data.length).toNat = data.length := by rw [BitVec.toNat_ofNat]; omega
  refine ⟨?_, ?_, ?_⟩
  · show prio.toNat * 2 ^ 26 + hard.toNat * 2 ^ 25 + typ.toNat * 2 ^ 8 + origin.toNat < 2 ^ 29
    omega
  · show (BitVec.ofNat 8 data.length).toNat ≤ 8
    omega
  · show data.length = (BitVec.ofNat 8 data.length).toNat
    exact hl.symm

theorem carries_protocol {prio typ origin : U8} {hard : Bool} {data : List U8} (hp : prio.toNat < 8) (hl8 : data.length ≤ 8) {m : Msg} (h : Carries (protocol prio hard typ origin data) m) :
    Request m typ data := by
  obtain ⟨h1, h2, h3, h4, h5⟩ := h
  have hh : m.hard.toNat < 2 := by cases m.hard <;> decide
  have hh' : hard.toNat < 2 := by cases hard <;> decide
  have h6 := m.typ.isLt
  have h7 := m.oAddr.isLt
  have h8 := origin.isLt
  have h9 := typ.isLt
  have e : Drv.canId m = prio.toNat * 2 ^ 26 + hard.toNat * 2 ^ 25 + typ.toNat * 2 ^ 8 + origin.toNat := h1
  unfold Drv.canId at e
  refine ⟨BitVec.eq_of_toNat_eq ?_, BitVec.eq_of_toNat_eq ?_, ?_, ?_⟩
  · show m.cls.toNat = 0; omega
  · omega
  · exact h4
  · have : payload m = data := h5 rfl
    have hl : (BitVec.ofNat 8 data.length).toNat = data.length := by rw [BitVec.toNat_ofNat]; omega
    unfold payload at this
    rw [h4] at this
    change m.data.toList.take (BitVec.ofNat 8 data.length).toNat = data at this
    rwa [hl] at this

theorem wireOf_event (c : Ctx) (nick q typ : U8) (hq : q.toNat < 8) (l : List U8) (h8 : l.length ≤ 8) : wireOf (event c nick q typ l) = protocol q c.hardCoded typ nick l := by
  rw [wireOf_eq (by show q.toNat < 8; exact hq) (by show (0 : U16).toNat < 512; decide)]
  have hp : payload (event c nick q typ l) = l := by
    have hl : (BitVec.ofNat 8 l.length).toNat = l.length := by rw [BitVec.toNat_ofNat]; omega
    unfold payload event
    rw [hl]
    apply List.ext_getElem
    · simp; omega
    · intro i h1 h2
      simp [bytes8, List.getD_eq_getElem?_getD, h2]
  unfold frameOf protocol
  rw [hp]
  unfold Drv.canId event
  simp only [BusFrame.mk.injEq, true_and, and_true]
  show q.toNat * 2 ^ 26 + _ + 0 * _ + _ + _ = _
  omega

/-- With room for all frames, the adapter takes them. -/
theorem feed_room (a : Around) (n : Nat) (t : List Out) (l : List Msg) (x : Drv) (h : Sends l x) (h8 : ∀ m ∈ frames t, m.size.toNat ≤ 8)
    (hr : (frames t).length + (waiting x.1).length ≤ 14) : feed a n t x = .impossible ∨ ∃ y, feed a n t x = .ok y ∧ Sends (l ++ frames t) y := by
  induction t generalizing n l x with
  | nil => exact .inr ⟨x, rfl, by simpa [frames] using h⟩
  | cons o t ih =>
    by_cases ho : ∃ m r, o = .tx m r
    · obtain ⟨m, r, rfl⟩ := ho
      have ht : frames (Out.tx m r :: t) = m :: frames t := rfl
      rw [ht] at h8 hr ⊢
      rw [List.length_cons] at hr
      obtain ⟨⟨r', y⟩, h1, h2, h3, -, -, h6, -, q, h7⟩ := writeMessage_inv m (a.wstack n) (a.hw n) x h.inv
      have hr' : r' = true := h6 (h8 m List.mem_cons_self) (by omega)
      subst hr'
      dsimp only at h2 h3 h7
      rw [if_pos rfl] at h3
      simp only [feed, h1]
      by_cases e : true = r
      · rw [if_pos e]
        have hs : Sends (l ++ [m]) y := ⟨h2, by rw [h3, h.taken]; simp⟩
        have c1 := h.inv.count
        have c2 := h2.count
        have c3 : y.2.taken.length = x.2.taken.length + 1 := by
          have := congrArg List.length h3
          simpa using this
        have c4 : y.2.wire.length = x.2.wire.length + q.length := by rw [h7]; simp
        rcases ih (n + 1) _ y hs (fun m hm => h8 m (List.mem_cons_of_mem _ hm)) (by omega) with e | ⟨z, z1, z2⟩
        · exact .inl e
        · exact .inr ⟨z, z1, by simpa using z2⟩
      · rw [if_neg e]
        exact .inl rfl
    · have e1 : feed a n (o :: t) x = feed a (n + 1) t x := by cases o <;> first | rfl | exact absurd ⟨_, _, rfl⟩ ho
      have e2 : frames (o :: t) = frames t := by cases o <;> first | rfl | exact absurd ⟨_, _, rfl⟩ ho
      rw [e1]
      rw [e2] at h8 hr ⊢
      exact ih (n + 1) l x h h8 hr

section
variable {c : Ctx} (hc : GoodCfg c) {cb : Callbacks} (hcb : CbOk cb) (hlb : c.loopback = false) (hpn : c.protoNotify = false) (a : Around) (ok : Tmr → Bool) (ps : Nat → U8)
  (s : CanDrv.State) (l : List Move) (hl : ∀ mv ∈ l, Spec.CanNode.Ok mv) {n : Node} (hn : run c cb a l (boot c cb ok ps s) = .ok n)
  (ha : n.w.v.st = .active) (hu : n.x.2.stored.length = n.heard.length)
  (prio origin : U8) (hard : Bool) (hp : prio.toNat < 8)
include hc hcb hlb hpn hl hn ha hu hp

/-- A request on the bus to an active node, and the frames the handler of the request sends. -/
theorem exchange (q : U8) (hq : q.toNat < 8) (typ : U8) (data : List U8) (h8 : data.length ≤ 8) (F : List (U8 × List U8)) (hF : ∀ f ∈ F, f.2.length ≤ 8)
    (hf : (taken n.w.out).length + F.length ≤ n.x.2.wire.length + 14)
    (hh : ∀ m, Request m typ data → ∃ t, (Registers.handle c m (preProcess c (some m) n.w).2).out = (preProcess c (some m) n.w).2.out ++ t ∧
      frames t = F.map fun f => event c n.w.v.nick q f.1 f.2) {n' : Node}
    (hn' : run c cb a ([.rx (protocol prio hard typ origin data), .cycle] ++ List.replicate 14 .tx) n = .ok n') :
    (∃ old new, old.length + n.x.2.wire.length = (taken n.w.out).length ∧
      n'.x.2.wire.Perm (n.x.2.wire ++ old ++ F.map (fun f => protocol q c.hardCoded f.1 n.w.v.nick f.2) ++ new)) ∧
    ∃ m, Request m typ data ∧ n'.w = (stepOpC c cb (.process (some m)) n.w).2 := by
  have h := node_good hc hcb a ok ps s l hl hn
  have hcount := h.sends.inv.count
  have hlen : (taken n.w.out).length = n.x.2.taken.length := by
    have := congrArg List.length h.sends.taken
    simpa using this.symm
  have hst : n.x.2.stored = n.x.2.got.map onBus := by
    rcases h.sends.inv.mob0 with ⟨-, e⟩ | ⟨_, b, -, -, -, e⟩
    · exact e
    · have := congrArg List.length e
      have := h.len
      simp at *
      omega
  have hval : Valid (protocol prio hard typ origin data) := protocol_valid hp h8
  have hreq : ∀ m, Carries (protocol prio hard typ origin data) m → Request m typ data := fun m => carries_protocol hp h8
  generalize protocol prio hard typ origin data = b at *
  obtain ⟨g1, g2⟩ := rx_good h b hval
  have hr := g2.2 hst
  simp only [hr, if_true] at g1
  rw [List.cons_append, List.cons_append, List.nil_append] at hn'
  simp only [run, move, hr, if_true] at hn'
  generalize hx1 : (((CanDrv.rx b n.x.1).1, { n.x.2 with stored := n.x.2.stored ++ [b] }) : Drv) = x1 at g1 hn'
  have x1t : x1.2.taken = n.x.2.taken := by rw [← hx1]
  have x1w : x1.2.wire = n.x.2.wire := by rw [← hx1]
  have x1g : x1.2.got = n.x.2.got := by rw [← hx1]
  have x1s : x1.2.stored = n.x.2.stored ++ [b] := by rw [← hx1]
  obtain ⟨⟨m, x2⟩, r1, r2, r3, r4, r5, r6⟩ := readMessage_inv (a.rstack n.w.out.length) (a.old n.w.out.length) x1 g1.sends.inv
  dsimp only at r2 r3 r4 r5 r6
  rw [r1] at hn'
  dsimp only at hn'
  rcases r6 with ⟨-, -, e⟩ | ⟨m, g, rfl, -, hcar, -, e⟩
  · exfalso
    rw [x1s, x1g, hst] at e
    have := congrArg List.length e
    simp at this
  have hg : onBus g = b := by
    rw [x1s, x1g, hst] at e
    simpa using (List.append_cancel_left e).symm
  rw [hg] at hcar
  obtain ⟨t1, ht1, hF1⟩ := hh m (hreq m hcar)
  rw [pre_out] at ht1
  obtain ⟨t2, ho⟩ := answer_cycle hcb hlb hpn ha (hreq m hcar).cls ht1
  have hs2 : Sends (taken n.w.out) x2 := ⟨r2, by rw [r3, x1t]; exact h.sends.taken⟩
  have hlF : (frames t1).length = F.length := by rw [hF1]; simp
  have hw2 : (frames t1).length + (waiting x2.1).length ≤ 14 := by
    have := r2.count
    rw [r3, r4, x1t, x1w] at this
    omega
  have h8F : ∀ m ∈ frames t1, m.size.toNat ≤ 8 := by
    intro m hm
    rw [hF1] at hm
    obtain ⟨f, hf, rfl⟩ := List.mem_map.1 hm
    have := hF f hf
    show (BitVec.ofNat 8 f.2.length).toNat ≤ 8
    rw [BitVec.toNat_ofNat]
    omega
  unfold callFw at hn'
  dsimp only at hn'
  rw [ho, List.append_assoc, List.drop_left, feed_append] at hn'
  rcases feed_room a n.w.out.length t1 _ x2 hs2 h8F hw2 with e | ⟨y, e, hs3⟩
  · rw [e] at hn'; cases hn'
  rw [e] at hn'
  dsimp only at hn'
  rcases feed_inv a (n.w.out.length + t1.length) t2 _ y hs3 with e | ⟨z, z1, z2, z3, z4, z5⟩
  · rw [e] at hn'; cases hn'
  · rw [z1] at hn'
    dsimp only at hn'
    obtain ⟨n3, d2, d3, d4⟩ := drainX c cb a 14 z2.inv hn'
    refine ⟨⟨waiting n.x.1, (taken t2).map wireOf, by omega, ?_⟩, m, hreq m hcar, d4⟩
    have hz : waiting n'.x.1 = [] := List.length_eq_zero_iff.1 (by rw [d2]; have := z2.inv.waiting_le; dsimp only; omega)
    have hp' := n3.perm
    rw [hz, List.append_nil, d3, z2.taken] at hp'
    refine hp'.trans ?_
    have hFw : (F.map fun f => event c n.w.v.nick q f.1 f.2).map wireOf = F.map fun f => protocol q c.hardCoded f.1 n.w.v.nick f.2 := by
      rw [List.map_map]
      exact List.map_congr_left fun f hf => wireOf_event c _ q _ hq _ (hF f hf)
    rw [List.map_append, List.map_append, hF1, hFw]
    refine List.Perm.append_right _ (List.Perm.append_right _ ?_)
    rw [← h.sends.taken]
    exact h.sends.inv.perm.symm

/-- C105: at any point of a history at which the node is active, has delivered all frames to the framework and less than 14 frames wait for the bus: a request to read one of the
VSCP registers, from whatever node, is answered with the content of the register.  When the bus was free for 14 frames after the next cycle, it has carried exactly
the frames of before (`old`: those which waited), the answer, and what else the node has sent in the cycle. -/
theorem C105_answer (hf : (taken n.w.out).length < n.x.2.wire.length + 14) (k : Nat) (hk : k < registerMap.length) {n' : Node}
    (hn' : run c cb a ([.rx (protocol prio hard 9 origin [n.w.v.nick, BitVec.ofNat 8 (0x80 + k)]), .cycle] ++ List.replicate 14 .tx) n = .ok n') :
    ∃ old new, old.length + n.x.2.wire.length = (taken n.w.out).length ∧
      n'.x.2.wire.Perm (n.x.2.wire ++ old ++ [protocol 3 c.hardCoded 10 n.w.v.nick [BitVec.ofNat 8 (0x80 + k), registerMap[k].value c n.w]] ++ new) := by
  refine (exchange hc hcb hlb hpn a ok ps s l hl hn ha hu prio origin hard hp 3 (by decide) 9 _ (by simp) [(10, [BitVec.ofNat 8 (0x80 + k), registerMap[k].value c n.w])] (by simp) hf
    (fun m hm => ?_) hn').1
  have hni : (preProcess c (some m) n.w).2.v.nick = n.w.v.nick := pre_same c (some m) n.w .nick (by decide)
  have hv := value_pre c (some m) n.w registerMap[k]
  generalize (preProcess c (some m) n.w).2 = w1 at *
  rw [← hni] at hm
  have hh := handle_read c w1 m _ hm
  rw [Registers.C16_register_map c w1 k hk, hv, hni] at hh
  obtain ⟨t1, ht1, hq1⟩ := ((Foot.readRegister (List.Subset.refl _) : Foot c True [.alarm, .appRead] (Core.readRegister c 0 (BitVec.ofNat 8 (0x80 + k)))) w1).quiet
    (by decide) (by simp)
  rw [Registers.handle, hh, sent_out, ht1]
  exact ⟨_, List.append_assoc .., by rw [frames_append, hq1]; rfl⟩

/-- C105: a request to write the node control flags, the user id, or the page select is answered with the value written.  Afterwards flags and user id read as this value,
unless the factory settings are restored in this cycle. -/
theorem C105_write (hf : (taken n.w.out).length < n.x.2.wire.length + 14) (addr v : U8) (h : addr.toNat ∈ [0x83, 0x84, 0x85, 0x86, 0x87, 0x88, 0x92, 0x93]) {n' : Node}
    (hn' : run c cb a ([.rx (protocol prio hard 11 origin [n.w.v.nick, addr, v]), .cycle] ++ List.replicate 14 .tx) n = .ok n') :
    (∃ old new, old.length + n.x.2.wire.length = (taken n.w.out).length ∧
      n'.x.2.wire.Perm (n.x.2.wire ++ old ++ [protocol 3 c.hardCoded 10 n.w.v.nick [addr, v]] ++ new)) ∧
    (plain addr → ¬ factoryReset n.w n'.w → (Core.readRegister c 0 addr n'.w).1 = v) := by
  obtain ⟨h1, m, hm, h2⟩ := exchange hc hcb hlb hpn a ok ps s l hl hn ha hu prio origin hard hp 3 (by decide) 11 _ (by simp) [(10, [addr, v])] (by simp) hf (fun m hm => by
    have hni : (preProcess c (some m) n.w).2.v.nick = n.w.v.nick := pre_same c (some m) n.w .nick (by decide)
    generalize (preProcess c (some m) n.w).2 = w1 at *
    rw [← hni] at hm
    have hacc : accepted c w1 0 addr = true := by
      simp only [List.mem_cons, List.not_mem_nil, or_false] at h
      unfold accepted
      rw [if_pos ⟨rfl, by omega⟩]
      simp only [writable, List.contains_eq_mem, List.mem_cons, decide_eq_true_eq]
      omega
    obtain ⟨t, ht, hfr⟩ := writeRegister_quiet c 0 addr v w1
    rw [Registers.handle_write c w1 m addr v hm]
    simp only [writeRegister_accepted hacc, if_true]
    rw [sent_out, ht, writeRegister_value h, writeRegister_nick h, hni]
    exact ⟨_, List.append_assoc .., by rw [frames_append, hfr]; rfl⟩) hn'
  refine ⟨h1, fun hpl hfr => ?_⟩
  have hg := node_good hc hcb a ok ps s l hl hn
  have hr : (Transport.readMessage c (some m) n.w).1 = some m := by
    unfold Transport.readMessage
    rw [if_neg (by rw [hlb]; decide)]
    rfl
  have ht : Takes c (some m) n.w m := ⟨ha, hr, fun h => by rw [hpn] at h; exact absurd h (by decide)⟩
  have h8 : m.size.toNat ≤ 8 := by rw [hm.size]; exact (by decide : (3 : U8).toNat ≤ 8)
  have key := LastWrite.opC_plain hcb hpn hpl (.process (some m)) n.w (fun rx m' e ht' => by
    cases e
    have e := hr.symm.trans ht'.2.1
    cases e
    exact h8)
  rw [← h2, if_neg hfr] at key
  rw [LastWrite.read_plain hpl, key]
  show afterCycle c (some m) n.w addr (n.w.ps (LastWrite.loc c.toCfg addr)) = v
  unfold afterCycle
  rw [hr]
  dsimp only
  rw [if_pos ⟨ht, hm.cls⟩]
  have hpay : payload m = [n.w.v.nick, addr, v] := by
    unfold payload
    rw [hm.size]
    exact hm.data
  unfold written
  rw [hpay, hm.typ]
  simp

/-- C105: who is there: the node answers with seven frames which carry its GUID and the URL of its description. -/
theorem C105_who (hf : (taken n.w.out).length ≤ n.x.2.wire.length + 7) (x : U8) (hx : x = n.w.v.nick ∨ x = 0xFF) {n' : Node}
    (hn' : run c cb a ([.rx (protocol prio hard 31 origin [x]), .cycle] ++ List.replicate 14 .tx) n = .ok n') :
    ∃ old new, old.length + n.x.2.wire.length = (taken n.w.out).length ∧
      n'.x.2.wire.Perm (n.x.2.wire ++ old ++ (List.range 7).map (fun i => protocol 3 c.hardCoded 32 n.w.v.nick (numbered (Registers.identity c n.w) i)) ++ new) := by
  have := (exchange hc hcb hlb hpn a ok ps s l hl hn ha hu prio origin hard hp 3 (by decide) 31 _ (by simp) ((List.range 7).map fun i => (32, numbered (Registers.identity c n.w) i)) ?_ ?_
    (fun m hm => ?_) hn').1
  · simpa [List.map_map, Function.comp_def] using this
  · intro f hf
    obtain ⟨i, -, rfl⟩ := List.mem_map.1 hf
    simp [numbered]
    omega
  · simpa using hf
  · have hni : (preProcess c (some m) n.w).2.v.nick = n.w.v.nick := pre_same c (some m) n.w .nick (by decide)
    have hid : Registers.identity c (preProcess c (some m) n.w).2 = Registers.identity c n.w := by
      unfold Registers.identity
      have e1 : ∀ i, (DevData.getGuid c i (preProcess c (some m) n.w).2).1 = (DevData.getGuid c i n.w).1 := fun i => value_pre c (some m) n.w (.guid i)
      have e2 : ∀ i, (DevData.getMdf c i (preProcess c (some m) n.w).2).1 = (DevData.getMdf c i n.w).1 := fun i => value_pre c (some m) n.w (.mdfUrl i)
      simp only [e1, e2]
    rw [← hni, ← hid]
    rw [← hni] at hx
    generalize (preProcess c (some m) n.w).2 = w1 at *
    obtain ⟨t, e, ht, -, hfr⟩ := Registers.C27_answer c w1 m x hm hx
    rw [ht]
    exact ⟨t, rfl, by rw [hfr, List.map_map]; rfl⟩

end

theorem keeps {c : Ctx} (hc : GoodCfg c) {cb : Callbacks} (hcb : CbOk cb) (hlb : c.loopback = false) (hpn : c.protoNotify = false) {x : U8} (hx : plain x) :
    ∀ (ops : List Op) (w : W), LbOk c w → (∀ op ∈ ops, op.Ok) →
      (∀ m, .process (some m) ∈ ops → m.cls = 0 → ∀ nick page cur, written nick page cur m x = none) →
      ∃ t, (runOpsC c cb ops w).out = w.out ++ t ∧ (.portRestore ∉ t → (Core.readRegister c 0 x (runOpsC c cb ops w)).1 = (Core.readRegister c 0 x w).1)
  | [], w, _, _, _ => ⟨[], by simp [runOpsC], fun _ => rfl⟩
  | op :: ops, w, hl, hops, hw => by
    have hop := hops op (by simp)
    obtain ⟨L, -, hs⟩ := stepOpC_steps hcb hop hl
    obtain ⟨t1, ht1, -⟩ := hs.outs
    obtain ⟨t2, h1, h2⟩ := keeps hc hcb hlb hpn hx ops (stepOpC c cb op w).2 (hs.lbOk hc.notBad hc.lb hl).1 (fun o ho => hops o (by simp [ho])) (fun m hm => hw m (by simp [hm]))
    refine ⟨t1 ++ t2, by rw [runOpsC, h1, ht1, List.append_assoc], fun hr => ?_⟩
    rw [runOpsC, h2 fun h => hr (List.mem_append_right _ h), LastWrite.read_plain hx, LastWrite.read_plain hx, LastWrite.opC_plain hcb hpn hx op w ?_]
    · rw [if_neg (by rw [Wear.factory_of ht1]; exact fun h => hr (List.mem_append_left _ h))]
      cases op with
      | process rx =>
        show afterCycle c rx w x (w.ps (LastWrite.loc c.toCfg x)) = _
        have hr : (Transport.readMessage c rx w).1 = rx := by
          unfold Transport.readMessage
          rw [if_neg (by rw [hlb]; decide)]
          rfl
        unfold afterCycle
        rw [hr]
        cases rx with
        | none => rfl
        | some m =>
          dsimp only
          split
          · rename_i h
            rw [hw m (by simp) h.2]
            rfl
          · rfl
      | _ => rfl
    · rintro rx m rfl ht
      refine (hl.read rx ?_).2.2 m ht.2.1
      rintro m' rfl
      exact hop

theorem callsOf_heard : ∀ (l : List Move) (rs : List (Option Msg)) (m : Msg), (∀ mv ∈ l, Spec.CanNode.Ok mv) → .process (some m) ∈ callsOf l rs → m ∈ rs.filterMap id
  | [], _, _, _, h => by cases h
  | .cycle :: l, rs, m, hl, h => by
    cases rs with
    | nil =>
      rcases List.mem_cons.1 h with h | h
      · cases h
      · exact callsOf_heard l [] m (fun mv h => hl mv (List.mem_cons_of_mem _ h)) h
    | cons r rs =>
      have : m ∈ r.toList ∨ m ∈ rs.filterMap id := by
        rcases List.mem_cons.1 h with h | h
        · cases h; exact .inl (by simp)
        · exact .inr (callsOf_heard l rs m (fun mv h => hl mv (List.mem_cons_of_mem _ h)) h)
      cases r <;> simp at this ⊢ <;> exact this
  | .call op :: l, rs, m, hl, h => by
    rcases List.mem_cons.1 h with h | h
    · exfalso
      have := hl _ (List.mem_cons_self ..)
      rw [← h] at this
      rcases this with h | ⟨_, h⟩
      · exact h
      · cases h
    · exact callsOf_heard l rs m (fun mv h => hl mv (List.mem_cons_of_mem _ h)) h
  | .rx _ :: l, rs, m, hl, h => callsOf_heard l rs m (fun mv h => hl mv (List.mem_cons_of_mem _ h)) h
  | .tx :: l, rs, m, hl, h => callsOf_heard l rs m (fun mv h => hl mv (List.mem_cons_of_mem _ h)) h

/-- C105: node control flags and user id keep their value over any history of the node in which it hears no event which writes the register, and the factory settings are not restored.  (With
`C105_write` and `C105_answer`: what was written over the bus is read over the bus.) -/
theorem C105_keeps {c : Ctx} (hc : GoodCfg c) {cb : Callbacks} (hcb : CbOk cb) (hlb : c.loopback = false) (hpn : c.protoNotify = false) (a : Around) (ok : Tmr → Bool) (ps : Nat → U8)
    (s : CanDrv.State) (l : List Move) (hl : ∀ mv ∈ l, Spec.CanNode.Ok mv) {n : Node} (hn : run c cb a l (boot c cb ok ps s) = .ok n)
    (l' : List Move) (hl' : ∀ mv ∈ l', Spec.CanNode.Ok mv) {n' : Node} (hn' : run c cb a l' n = .ok n') (x : U8) (hx : plain x) (hr : ¬ factoryReset n.w n'.w)
    (hw : ∀ m ∈ n'.heard.drop n.heard.length, m.cls = 0 → ∀ nick page cur, written nick page cur m x = none) :
    (Core.readRegister c 0 x n'.w).1 = (Core.readRegister c 0 x n.w).1 := by
  have h := node_good hc hcb a ok ps s l hl hn
  obtain ⟨rs, -, h2, h3, h4⟩ := run_calls hc hcb a l' h hl' hn'
  rw [h2, List.drop_left] at hw
  obtain ⟨t, h5, h6⟩ := keeps hc hcb hlb hpn hx (callsOf l' rs) n.w h.lb h4 fun m hm => hw m (callsOf_heard l' rs m hl' hm)
  rw [← h3] at h5 h6
  exact h6 fun h => hr (by rw [Wear.factory_of h5]; exact h)

/-! ### Such histories exist -/

/-- Uninitialised variables are whatever they are; the bus is free enough: what waits is sent before a frame is handed over. -/
def Free (a : Around) : Prop := ∀ n k, 14 ≤ a.hw n k 1

theorem txs_drain : ∀ (k : Nat) {x : Drv}, Inv x → Inv ((CanDrv.txs k x.1).1, { x.2 with wire := x.2.wire ++ (CanDrv.txs k x.1).2 }) ∧
    (waiting (CanDrv.txs k x.1).1).length = (waiting x.1).length - k
  | 0, x, h => ⟨by simpa [CanDrv.txs] using h, rfl⟩
  | k + 1, x, h => by
    obtain ⟨a1, a2, a3⟩ := h.tx
    obtain ⟨h1, h2⟩ := txs_drain k a1
    refine ⟨by simpa [CanDrv.txs] using h1, ?_⟩
    have : (CanDrv.txs (k + 1) x.1).1 = (CanDrv.txs k (CanDrv.tx x.1).1).1 := rfl
    rw [this, h2, ← a3]
    omega

theorem send_free {f : CanDrv.Frame} (hf : Plain f) {hw : Nat → Nat} (h14 : 14 ≤ hw 1) {x : Drv} (h : Inv x) :
    ∃ r, CanDrv.sendFrame f hw x.1 = some r ∧ r.1 = .ok := by
  obtain ⟨r, h1, h2, h3, h4⟩ := h.send f hw hf
  refine ⟨r, h1, ?_⟩
  obtain ⟨d1, d2⟩ := txs_drain (hw 1) h
  have hz : waiting (CanDrv.txs (hw 1) x.1).1 = [] := List.length_eq_zero_iff.1 (by rw [d2]; have := h.waiting_le; omega)
  have hnp : (CanDrv.txs (hw 1) x.1).1.mobs[1].pending = false := by
    cases hb : (CanDrv.txs (hw 1) x.1).1.mobs[1].pending with
    | false => rfl
    | true =>
      simp only [waiting, List.map_eq_nil_iff, List.filter_eq_nil_iff] at hz
      exact absurd hb (hz _ (by simp))
  have hsome : ∃ i, (CanDrv.search hw 1 x.1).1 = some i := by
    unfold CanDrv.search
    rw [dif_pos (by decide)]
    dsimp only
    by_cases c1 : (CanDrv.txs (hw 1) x.1).1.mobs[1].cd &&& 0xC0 = 0
    · rw [if_pos c1]; exact ⟨_, rfl⟩
    · rw [if_neg c1]
      by_cases c2 : (CanDrv.txs (hw 1) x.1).1.mobs[1].st &&& 0x40 ≠ 0
      · rw [if_pos c2]; exact ⟨_, rfl⟩
      · have := (d1.slot 1 (by decide) (by decide)).pending.2 ⟨c1, by simpa using c2⟩
        dsimp only at this
        rw [hnp] at this
        cases this
  obtain ⟨i, hi⟩ := hsome
  unfold CanDrv.sendFrame CanDrv.getFreeMob at h1
  rcases hs : CanDrv.search hw 1 x.1 with ⟨o, s', out⟩
  rw [hs] at h1 hi
  dsimp only at hi
  subst hi
  simp only [if_pos hf.1, Option.some.injEq] at h1
  rw [← h1]

theorem write_free {m : Msg} (h8 : m.size.toNat ≤ 8) (stack : Vector U8 8) {hw : Nat → Nat → Nat} (h14 : ∀ k, 14 ≤ hw k 1) {x : Drv} (h : Inv x) :
    ∃ y, writeMessage m stack hw x = some (true, y) := by
  have e : ∃ f, Can.writeFrame m stack = some f := ⟨_, by rw [Can.writeFrame, if_pos h8]⟩
  obtain ⟨f, hf⟩ := e
  obtain ⟨r, h1, h2⟩ := send_free (toDrv_plain hf).1 (h14 0) h
  unfold writeMessage
  rw [hf]
  dsimp only
  rw [sendLoop]
  simp only [CanDrv.move, h1, Option.map_some]
  rw [if_pos h2]
  exact ⟨_, rfl⟩

theorem feed_free {a : Around} (ha : Free a) (n : Nat) (t : List Out) (l : List Msg) (x : Drv) (h : Sends l x) (ht : ∀ m r, .tx m r ∈ t → r = true ∧ m.size.toNat ≤ 8) :
    feed a n t x ≠ .impossible := by
  induction t generalizing n l x with
  | nil => exact fun e => (by cases e)
  | cons o t ih =>
    by_cases ho : ∃ m r, o = .tx m r
    · obtain ⟨m, r, rfl⟩ := ho
      obtain ⟨h1, h2⟩ := ht m r (List.mem_cons_self ..)
      subst h1
      obtain ⟨y, hy⟩ := write_free h2 (a.wstack n) (ha n) h.inv
      obtain ⟨q, q1, q2, q3, -⟩ := writeMessage_inv m (a.wstack n) (a.hw n) x h.inv
      rw [hy] at q1
      cases q1
      simp only [feed, hy, if_true]
      refine ih (n + 1) (l ++ [m]) y ⟨q2, ?_⟩ fun m r h => ht m r (List.mem_cons_of_mem _ h)
      dsimp only at q3
      rw [q3, if_pos rfl, h.taken]
      simp
    · have other : feed a n (o :: t) x = feed a (n + 1) t x := by
        cases o <;> first | rfl | exact absurd ⟨_, _, rfl⟩ ho
      rw [other]
      exact ih (n + 1) l x h fun m r h => ht m r (List.mem_cons_of_mem _ h)

theorem steps_tx {c : Ctx} {bad : Prop} (hbad : ¬bad) (hok : ∀ i, c.txOk i = true) {L : List Msg} (hL : ∀ m ∈ L, m.size.toNat ≤ 8) {A : List Act}
    (hA : ∀ m, Act.userTx m ∈ A → m ∈ L) {w w' : W} (h : Steps c bad A w w') : ∃ t, w'.out = w.out ++ t ∧ ∀ m r, .tx m r ∈ t → r = true ∧ m.size.toNat ≤ 8 := by
  refine h.rel (R := fun w w' => ∃ t, w'.out = w.out ++ t ∧ ∀ m r, .tx m r ∈ t → r = true ∧ m.size.toNat ≤ 8) (fun w => ⟨[], by simp, by simp⟩) ?_ ?_
  · rintro w w' w'' ⟨t, ht, hf⟩ ⟨t', ht', hf'⟩
    refine ⟨t ++ t', by rw [ht', ht, List.append_assoc], fun m r hm => ?_⟩
    rcases List.mem_append.1 hm with hm | hm
    · exact hf m r hm
    · exact hf' m r hm
  · intro b hb w w' hs
    have key : ∀ m : Msg, m.size.toNat ≤ 8 → ∃ t, (Transport.writeMessage c m w).2.out = w.out ++ t ∧ ∀ m r, .tx m r ∈ t → r = true ∧ m.size.toNat ≤ 8 := by
      intro m h8
      obtain ⟨tp, ub, t, e, ht⟩ := writeMessage_frame c m w
      have e1 : (Transport.writeMessage c m w).1 = true := by
        rw [Transport.writeMessage_run, if_neg (by omega)]
        exact hok _
      refine ⟨t, by rw [e], fun m' r hm => ?_⟩
      rcases ht with rfl | ⟨rfl, -⟩
      · rw [e1] at hm
        simp only [List.mem_singleton, Out.tx.injEq] at hm
        obtain ⟨rfl, rfl⟩ := hm
        exact ⟨rfl, h8⟩
      · cases hm
    by_cases e1 : b = .tx
    · subst e1
      obtain ⟨m, -, -, h8, rfl⟩ := hs
      exact key m (h8.resolve_right hbad)
    · by_cases e2 : ∃ m, b = .userTx m
      · obtain ⟨m, rfl⟩ := e2
        cases hs
        exact key m (hL m (hA m hb))
      · obtain ⟨t, ht, hq⟩ := hs.quiet e1 (fun m e => e2 ⟨m, e⟩)
        refine ⟨t, ht, fun m r hm => ?_⟩
        exfalso
        unfold frames at hq
        rw [List.filterMap_eq_nil_iff] at hq
        exact absurd (hq _ hm) (by simp)

theorem callFw_free {c : Ctx} (hc : GoodCfg c) (hok : ∀ i, c.txOk i = true) {cb : Callbacks} (hcb : CbOk cb) (hcb8 : ∀ m, Vscp.Sends cb m → m.size.toNat ≤ 8)
    {a : Around} (ha : Free a) {op : Op} (hop : op.Ok) (hop8 : ∀ m, op = .sendEvent m → m.size.toNat ≤ 8) {n : Node} (hlb : LbOk c n.w) (hsn : Sends (taken n.w.out) n.x) :
    callFw c cb a op n ≠ .impossible := by
  obtain ⟨L, hL, hs⟩ := stepOpC_steps hcb hop hlb
  obtain ⟨t, ht, h8⟩ := steps_tx hc.notBad hok (L := L) (fun m hm => (hL m hm).elim (hop8 m) (hcb8 m)) (fun m hm => by
    rcases List.mem_append.1 hm with hm | hm
    · exact absurd hm (nodeActs_user m)
    · simpa using hm) hs
  unfold callFw
  dsimp only
  rw [ht, List.drop_left]
  have := feed_free ha n.w.out.length t _ n.x hsn h8
  cases e : feed a n.w.out.length t n.x with
  | impossible => exact absurd e this
  | ub => exact fun e => (by cases e)
  | ok x => exact fun e => (by cases e)

/-- C105: the histories of the other theorems exist, for all moves: when the bus is free enough, the adapter takes every event of up to 8 bytes, and the framework goes on with that. -/
theorem C105_possible {c : Ctx} (hc : GoodCfg c) (hok : ∀ i, c.txOk i = true) {cb : Callbacks} (hcb : CbOk cb) (hcb8 : ∀ m, Vscp.Sends cb m → m.size.toNat ≤ 8)
    {a : Around} (ha : ∀ n k, 14 ≤ a.hw n k 1) (ok : Tmr → Bool) (ps : Nat → U8) (s : CanDrv.State) (l : List Move) (hl : ∀ mv ∈ l, Spec.CanNode.Ok mv)
    (hl8 : ∀ m, .call (.sendEvent m) ∈ l → m.size.toNat ≤ 8) : ∃ n, run c cb a l (boot c cb ok ps s) = .ok n := by
  suffices H : ∀ (l : List Move) (n : Node), Good c n → (∀ mv ∈ l, Spec.CanNode.Ok mv) → (∀ m, .call (.sendEvent m) ∈ l → m.size.toNat ≤ 8) →
      ∃ n', run c cb a l n = .ok n' from H l _ (boot_good hc cb ok ps s) hl hl8
  intro l
  induction l with
  | nil => exact fun n _ _ _ => ⟨n, rfl⟩
  | cons mv l ih =>
    intro n h hl hl8
    have hmv := hl mv (List.mem_cons_self ..)
    have hne : move c cb a n mv ≠ .impossible := by
      cases mv with
      | cycle =>
        obtain ⟨⟨m, x⟩, r1, r2, r3, r4, r5, r6⟩ := readMessage_inv (a.rstack n.w.out.length) (a.old n.w.out.length) n.x h.sends.inv
        simp only [move, r1]
        have hop : (Op.process m).Ok := by
          rcases r6 with ⟨rfl, -⟩ | ⟨m, g, rfl, -, -, h8, -⟩
          · exact trivial
          · exact h8
        exact callFw_free hc hok hcb hcb8 ha hop (fun m e => (by cases e)) h.lb ⟨r2, by rw [r3]; exact h.sends.taken⟩
      | call op => exact callFw_free hc hok hcb hcb8 ha (Ok.op hmv) (fun m e => hl8 m (e ▸ List.mem_cons_self ..)) h.lb h.sends
      | rx b => exact fun e => (by cases e)
      | tx => exact fun e => (by cases e)
    rcases move_good hc hcb a h mv hmv with e | ⟨n', e1, e2⟩
    · exact absurd e hne
    · simp only [run, e1]
      exact ih n' e2 (fun mv h => hl mv (List.mem_cons_of_mem _ h)) fun m h => hl8 m (List.mem_cons_of_mem _ h)

/-! ### Example: the node of the AVR example -/

/-- Surroundings with a free bus. -/
def exAround : Around :=
  ⟨fun _ => Vector.replicate 8 0xA5, fun _ => ⟨0, 0, 0, Vector.replicate 8 0xA5⟩, fun _ => ⟨0, 0, 0, 0, false, 0, Vector.replicate 8 0xA5⟩, fun _ _ k => if k = 1 then 14 else 0⟩

/-- A history of the AVR example. -/
def exRun (l : List Move) : Res Node :=
  run (AvrProps.exSurr.ctx 0) (AvrProps.exSurr.cb 0) exAround l (boot (AvrProps.exSurr.ctx 0) (AvrProps.exSurr.cb 0) allOk AvrProps.exMem ⟨Vector.replicate 15 empty, false⟩)

/-- What the example shows of a node: whether it is active, its nickname, frames received, events delivered, events taken for transmission; frames on the bus. -/
def look (r : Res Node) : Option (List Nat × List (Nat × List U8)) :=
  match r with
  | .ok n => some ([(decide (n.w.v.st = .active)).toNat, n.w.v.nick.toNat, n.x.2.stored.length, n.heard.length, (taken n.w.out).length], n.x.2.wire.map fun b => (b.id, b.data))
  | _ => none

/-- An event of class 30 which matches a row of the decision matrix; its action sends an event. -/
def exEvent : BusFrame := ⟨true, false, 30 * 2 ^ 16 + 5 * 2 ^ 8 + 9, 0, []⟩

/-- The hypotheses of `C105_answer` are met after a cycle and an event from the bus. -/
example : GoodCfg (AvrProps.exSurr.ctx 0) ∧ CbOk (AvrProps.exSurr.cb 0) ∧ (AvrProps.exSurr.ctx 0).loopback = false ∧ (AvrProps.exSurr.ctx 0).protoNotify = false ∧
    (∀ mv ∈ [Move.cycle, .rx exEvent, .cycle], Spec.CanNode.Ok mv) ∧ look (exRun [.cycle, .rx exEvent, .cycle]) = some ([1, 5, 1, 1, 2], [(2 * 2 ^ 8 + 5, [5])]) := by
  refine ⟨AvrProps.good _ _, AvrProps.cb_ok _, rfl, rfl, ?_, by decide +kernel⟩
  simp [Spec.CanNode.Ok, Valid, exEvent]

/-- ... and the node answers a request to read the firmware version. -/
example : look (exRun ([.cycle, .rx exEvent, .cycle] ++ ([.rx (protocol 3 false 9 1 [5, 0x95]), .cycle] ++ List.replicate 14 .tx))) =
    some ([1, 5, 2, 2, 3], [(2 * 2 ^ 8 + 5, [5]), (3 * 2 ^ 26 + 20 * 2 ^ 16 + 3 * 2 ^ 8 + 5, [0, 255, 255]),
      ((protocol 3 false 10 5 [0x95, 2]).id, (protocol 3 false 10 5 [0x95, 2]).data)]) := by decide +kernel

/-- ... a request to write the user id, and one about who is there: what it has to send is on the bus. -/
example : look (exRun ([.cycle, .rx exEvent, .cycle] ++ ([.rx (protocol 3 false 11 1 [5, 0x84, 7]), .cycle] ++ List.replicate 14 .tx))) =
    some ([1, 5, 2, 2, 3], [(2 * 2 ^ 8 + 5, [5]), (3 * 2 ^ 26 + 20 * 2 ^ 16 + 3 * 2 ^ 8 + 5, [0, 255, 255]),
      ((protocol 3 false 10 5 [0x84, 7]).id, (protocol 3 false 10 5 [0x84, 7]).data)]) ∧
    (look (exRun ([.cycle, .rx exEvent, .cycle] ++ ([.rx (protocol 3 false 31 1 [0xFF]), .cycle] ++ List.replicate 14 .tx)))).map (fun r => (r.1, r.2.length)) =
      some ([1, 5, 2, 2, 9], 9) := by
  refine ⟨by decide +kernel, by decide +kernel⟩

/-- ... which it keeps while other events come, and a write of another register. -/
example : (match exRun ([.cycle, .rx (protocol 3 false 11 1 [5, 0x84, 7]), .cycle] ++ [.rx exEvent, .cycle, .rx (protocol 3 false 11 1 [5, 0x85, 8]), .cycle, .call (.tick 1000), .cycle]) with
      | .ok n => some (Core.readRegister (AvrProps.exSurr.ctx 0) 0 0x84 n.w).1
      | _ => none) = some 7 ∧ ∀ nick page cur, written nick page cur (Ex.msg 0 11 1 [5, 0x85, 8]) 0x84 = none := by
  refine ⟨by decide +kernel, fun nick page cur => ?_⟩
  have e : payload (Ex.msg 0 11 1 [5, 0x85, 8]) = [5, 0x85, 8] := rfl
  unfold written
  rw [e]
  simp [Ex.msg]

/-- The hypotheses of `C105_possible` about the callbacks and the bus are met. -/
example : (∀ m, Vscp.Sends (AvrProps.exSurr.cb 0) m → m.size.toNat ≤ 8) ∧ (∀ i, (AvrProps.exSurr.ctx 0).txOk i = true) ∧ ∀ n k, 14 ≤ exAround.hw n k 1 := by
  refine ⟨?_, fun _ => rfl, fun _ _ => Nat.le_refl _⟩
  rintro m ⟨w, hm⟩
  unfold Avr.Surr.cb Avr.cb at hm
  split at hm
  · split at hm
    · cases List.mem_singleton.1 hm; exact (by decide : (3 : U8).toNat ≤ 8)
    · split at hm
      · cases List.mem_singleton.1 hm; exact (by decide : (3 : U8).toNat ≤ 8)
      · cases hm
  · cases hm

/-- Frames faster than the cycles: the third one is lost, the others are delivered; without a cycle between them they are not `Paced`. -/
example : look (exRun [.cycle, .rx exEvent, .cycle, .rx exEvent, .rx exEvent, .cycle]) =
      some ([1, 5, 2, 2, 3], [(2 * 2 ^ 8 + 5, [5]), (3 * 2 ^ 26 + 20 * 2 ^ 16 + 3 * 2 ^ 8 + 5, [0, 255, 255])]) ∧
    Paced false [.cycle, .rx exEvent, .cycle, .rx exEvent, .tx, .cycle] ∧ ¬ Paced false [.cycle, .rx exEvent, .cycle, .rx exEvent, .rx exEvent, .cycle] := by
  refine ⟨by decide +kernel, ?_, ?_⟩ <;> simp [Paced]

end Vscp.Driver.CanNode
