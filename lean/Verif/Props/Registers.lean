/-
Property theorems: registers (C16 - C18, C20, C26 - C28).

The events are given to the handling of protocol events; `Props/States.lean` shows that an
active node handles every received protocol event that way.
-/
import Verif.Lemmas.RegWrite
import Verif.Example.Ctx

namespace Vscp.Registers
open M Spec

/-- The node after the handling of a protocol event. -/
abbrev handle (c : Ctx) (m : Msg) (w : W) : W := (Core.handleProtocolClassType c m w).2

/-! ### C16 -/

theorem wordMsb_eq (x : U16) : wordMsb x = BitVec.ofNat 8 (x.toNat / 256) := by
  apply BitVec.eq_of_toNat_eq; simp [wordMsb, Nat.shiftRight_eq_div_pow]
theorem wordLsb_eq (x : U16) : wordLsb x = BitVec.ofNat 8 (x.toNat % 256) := by
  apply BitVec.eq_of_toNat_eq; simp [wordLsb]

set_option maxRecDepth 8000 in
theorem map_eq (c : Ctx) (w : W) :
    (List.range 128).map (fun a => (Core.readRegister c 0 (BitVec.ofNat 8 (0x80 + a)) w).1) =
      registerMap.map (Reg.value c w) := by
  unfold Reg.value
  simp only [← wordMsb_eq, ← wordLsb_eq]
  rfl

/-- C16: the map covers every address of the upper half of page 0. -/
theorem C16_register_map_complete : registerMap.length = 128 := by simp [registerMap]

attribute [local irreducible] registerMap

/-- C16: the VSCP registers show the quantities of the register map. -/
theorem C16_register_map (c : Ctx) (w : W) (a : Nat) (ha : a < registerMap.length) :
    (Core.readRegister c 0 (BitVec.ofNat 8 (0x80 + a)) w).1 = registerMap[a].value c w := by
  have hl := C16_register_map_complete
  have h := congrArg (fun l => l[a]?) (map_eq c w)
  simp only [List.getElem?_map] at h
  rw [List.getElem?_eq_getElem ha, List.getElem?_eq_getElem (by simp; omega)] at h
  simpa using h

/-- C16: a read register event for the node is answered by the address and the quantity of the register map. -/
theorem C16_read_event (c : Ctx) (w : W) (m : Msg) (a : Nat) (ha : a < registerMap.length)
    (hm : Request m 9 [w.v.nick, BitVec.ofNat 8 (0x80 + a)]) :
    (handle c m w).out = w.out ++ [.tx (event c w.v.nick 3 10 [BitVec.ofNat 8 (0x80 + a), registerMap[a].value c w])
      (c.txOk w.out.length)] := by
  have hl := C16_register_map_complete
  have hn : appServed c 0 (BitVec.ofNat 8 (0x80 + a)) = false := by
    have : 0x80 ≤ (BitVec.ofNat 8 (0x80 + a)).toNat := by simp only [BitVec.toNat_ofNat]; omega
    simp only [appServed, this, and_self, decide_true, Bool.not_true, Bool.false_and]
  rw [handle, handle_read c w m _ hm, C16_register_map c w a ha, sent_out, not_appServed hn, alarmRead]
  split <;> rfl

/-- C16: every register outside of the VSCP registers which is not part of a decision matrix is served by the
application. -/
theorem C16_other_registers (c : Ctx) (w : W) (page : U16) (addr : U8) (h1 : ¬(page = 0 ∧ 0x80 ≤ addr.toNat))
    (h2 : c.dm = false ∨ Dm.isDecisionMatrix c page addr = false)
    (h3 : c.dmNg = false ∨ DmNg.isDecisionMatrix c page addr = false) :
    Core.readRegister c page addr w =
      (c.appRead w.out.length w.ps page addr,
        { w with out := w.out ++ [.appRead page addr (c.appRead w.out.length w.ps page addr)] }) := by
  apply appServed_run
  simp only [appServed, Bool.and_eq_true, Bool.not_eq_true', decide_eq_false_iff_not, Bool.and_eq_false_iff]
  exact ⟨⟨h1, h2⟩, h3⟩

-- The MDF URL register 0xE1 of a restored node shows the second character, the GUID register 0xD0 the first GUID byte.
example : let w := (runOps Ex.ctx [.init fun _ => true] (powerUp fun _ => 0xFF))
    (Core.readRegister Ex.ctx 0 0xE1 w).1 = 98 ∧ (Core.readRegister Ex.ctx 0 0xD0 w).1 = 1 ∧
    (Core.readRegister Ex.ctx 0 0xDF w).1 = 16 ∧ (Core.readRegister Ex.ctx 0 0x91 w).1 = 0xFF := by decide +kernel
example : Request (Ex.msg 0 9 7 [5, 0x83]) 9 [5, BitVec.ofNat 8 (0x80 + 3)] := ⟨rfl, rfl, rfl, rfl⟩

/-! ### C17 -/

/-- C17: what reading a register does to the node. -/
theorem C17_read (c : Ctx) (w : W) (page : U16) (addr : U8) :
    (Core.readRegister c page addr w).2 =
      if page = 0 ∧ addr = 0x80 then { w with v := { w.v with alarm := 0 } }
      else if appServed c page addr then
        { w with out := w.out ++ [.appRead page addr (Core.readRegister c page addr w).1] }
      else w := by
  cases h : appServed c page addr with
  | false => rw [not_appServed h, alarmRead]; simp
  | true =>
    rw [appServed_run h, if_neg]
    · simp
    · rintro ⟨rfl, rfl⟩; simp [appServed] at h

/-- C17: a read register event leaves the node as it is, except for the alarm status, the transmission error counter and
the calls made. -/
theorem C17_read_event (c : Ctx) (w : W) (m : Msg) (h : m.typ = 9) :
    ∃ al txErr t, handle c m w = { w with v := { w.v with alarm := al }, tp := { w.tp with txErr := txErr }, out := w.out ++ t } ∧
      (al = w.v.alarm ∨ m.data[1] = 0x80 ∧ al = 0) ∧ ∀ o ∈ t, isTx o ∨ isAppRead o := by
  have hh : handle c m w = (Core.handleReadRegister c m w).2 := by
    rw [handle, dispatch_9 c m h]
  rw [hh]
  unfold Core.handleReadRegister
  simp only [bind_run, get_run, whenM_run]
  split
  · rw [Core.sendRegisterReadWriteRsp, txVoid_run _ _ _ _ (by simp), C17_read]
    generalize Core.readRegister c 0 m.data[1] w = r
    split
    · rename_i h2
      exact ⟨0, _, _, by rw [sent, Transport.countErr_eq], Or.inr ⟨h2.2, rfl⟩, by simp [isTx, isAppRead]⟩
    · split
      · exact ⟨w.v.alarm, _, [_, _], by rw [sent, Transport.countErr_eq]; simp only [List.append_assoc]; rfl, Or.inl rfl,
          by simp [isTx, isAppRead]⟩
      · exact ⟨w.v.alarm, _, _, by rw [sent, Transport.countErr_eq], Or.inl rfl, by simp [isTx, isAppRead]⟩
  · exact ⟨w.v.alarm, w.tp.txErr, [], by simp, Or.inl rfl, by simp [isTx, isAppRead]⟩

-- Reading the alarm register clears it, reading another register does not.
example : let w := (runOps Ex.ctx [.init (fun _ => true), .setAlarm 3] (powerUp fun _ => 0xFF))
    (Core.readRegister Ex.ctx 0 0x80 w).1 = 3 ∧ (Core.readRegister Ex.ctx 0 0x80 w).2.v.alarm = 0 ∧
    (Core.readRegister Ex.ctx 0 0x83 w).2.v.alarm = 3 := by decide +kernel

/-! ### C18 -/

theorem readonly_aux : ∀ addr : U8, 0x80 ≤ addr.toNat → writable addr = false →
    ¬ addr.toNat = 0x83 ∧ ¬ (0x84 ≤ addr.toNat ∧ addr.toNat ≤ 0x88) ∧ ¬ addr.toNat = 0x92 ∧ ¬ addr.toNat = 0x93 ∧
      ¬ addr.toNat = 0xA2 := by decide +kernel

/-- C18: a write to a read-only register is rejected and changes nothing. -/
theorem C18_write_rejected (c : Ctx) (w : W) (addr v : U8) (h : 0x80 ≤ addr.toNat) (hr : writable addr = false) :
    Core.writeRegister c 0 addr v w = ((0, true), w) := by
  obtain ⟨h1, h2, h3, h4, h5⟩ := readonly_aux addr h hr
  unfold Core.writeRegister
  rw [if_pos ⟨rfl, h, by have := addr.isLt; omega⟩]
  unfold Core.writeVscpRegister
  simp only [h1, h2, h3, h4, h5, if_false]
  rfl

/-- C18: a write register event for a read-only register is not confirmed and changes nothing. -/
theorem C18_write_event (c : Ctx) (w : W) (m : Msg) (h : m.typ = 11) (ha : 0x80 ≤ m.data[1].toNat)
    (hr : writable m.data[1] = false) : handle c m w = w := by
  have hh : handle c m w = (Core.handleWriteRegister c m w).2 := by
    rw [handle, dispatch_11 c m h]
  rw [hh]
  unfold Core.handleWriteRegister
  simp only [bind_run, get_run, whenM_run, C18_write_rejected c w _ _ ha hr]
  split <;> simp

/-- C18: increment and decrement events for a read-only register are not confirmed and change nothing, except that they
read the register. -/
theorem C18_increment_event (c : Ctx) (w : W) (m : Msg) (h : m.typ = 29 ∨ m.typ = 30) (ha : 0x80 ≤ m.data[1].toNat)
    (hr : writable m.data[1] = false) :
    handle c m w = w ∨ m.data[1] = 0x80 ∧ handle c m w = { w with v := { w.v with alarm := 0 } } := by
  have hn : appServed c 0 m.data[1] = false := by simp [appServed, ha]
  have hh : handle c m w = (Core.handleIncrementRegister c m w).2 ∨ handle c m w = (Core.handleDecrementRegister c m w).2 := by
    rcases h with h | h
    · left; rw [handle, dispatch_29 c m h]
    · right; rw [handle, dispatch_30 c m h]
  rcases hh with hh | hh <;> rw [hh]
  all_goals
    first | unfold Core.handleIncrementRegister | unfold Core.handleDecrementRegister
    simp only [bind_run, get_run, whenM_run, C18_write_rejected c _ _ _ ha hr]
    split
    · rw [if_neg (by simp), C17_read]
      split
      · rename_i h2; exact .inr ⟨h2.2, rfl⟩
      · simp only [hn]; exact .inl rfl
    · exact .inl rfl

-- 0x91 (nickname) and 0xD0 (GUID) are read-only, the event below is one for a node with nickname 5.
example : writable 0x91 = false ∧ writable 0xD0 = false ∧ 0x80 ≤ (0x91 : U8).toNat := by decide
example : let m := Ex.msg 0 11 7 [5, 0x91, 6]
    m.typ = 11 ∧ 0x80 ≤ m.data[1].toNat ∧ writable m.data[1] = false := by decide

/-! ### C20 -/

theorem handle_write (c : Ctx) (w : W) (m : Msg) (addr v : U8) (hm : Request m 11 [w.v.nick, addr, v]) :
    handle c m w = (let r := Core.writeRegister c 0 addr v w
      if r.1.2 = false then sent c (event c r.2.v.nick 3 10 [addr, r.1.1]) r.2 else r.2) := by
  have h0 : m.data[0] = w.v.nick := hm.at 0 (by simp) (by simp)
  have h1 : m.data[1] = addr := hm.at 1 (by simp) (by simp)
  have h2 : m.data[2] = v := hm.at 2 (by simp) (by simp)
  have hs : m.size = 3 := hm.size
  rw [handle, dispatch_11 c m hm.typ]
  unfold Core.handleWriteRegister
  simp only [bind_run, get_run, whenM_run, h0, h1, h2, hs]
  rw [if_pos ⟨trivial, trivial⟩]
  split
  · rw [Core.sendRegisterReadWriteRsp, txVoid_run _ _ _ _ (by simp)]
  · rfl

/-- C20: a write which is not accepted is not answered, and changes nothing.  Accepted are writes to the writable VSCP
registers and, if the write-enable bit is set, to all other registers. -/
theorem C20_rejected (c : Ctx) (w : W) (m : Msg) (addr v : U8) (hm : Request m 11 [w.v.nick, addr, v])
    (h : (if 0x80 ≤ addr.toNat then writable addr else writeEnable (w.ps (Ps.addrFlags c))) = false) :
    handle c m w = w := by
  rw [handle_write c w m addr v hm, writeRegister_rejected (by unfold accepted; simpa using h)]
  rfl

/-- C20, partial: an accepted write is answered by exactly one frame.  For a register kept by the node its value is the one
the register holds afterwards.  Missing: the paged feature of the decision matrix, see `C20_violated_paged`. -/
theorem C20_truthful_partial (c : Ctx) (w : W) (m : Msg) (addr v : U8) (hm : Request m 11 [w.v.nick, addr, v])
    (h : (if 0x80 ≤ addr.toNat then writable addr else writeEnable (w.ps (Ps.addrFlags c))) = true)
    (hk : appServed c 0 addr = false) (hp : c.dm = true → c.dmPaged = false) :
    ∃ t ok, (handle c m w).out = w.out ++ t ++
        [.tx (event c (handle c m w).v.nick 3 10 [addr, (Core.readRegister c 0 addr (handle c m w)).1]) ok] ∧ frames t = [] := by
  have ha : accepted c w 0 addr = true := by unfold accepted; simpa using h
  obtain ⟨t, ht, hf⟩ := writeRegister_quiet c 0 addr v w
  rw [handle_write c w m addr v hm]
  simp only [writeRegister_accepted ha, if_true]
  refine ⟨t, c.txOk (Core.writeRegister c 0 addr v w).2.out.length, ?_, hf⟩
  rw [sent_out, ← ht, sent_v, writeRegister_truthful ha hk hp v (w' := sent c _ _) ⟨by simp, by simp, by simp, by simp⟩]

/-- C20: an accepted write to an application register is passed to the application once, which may store the node zones, and the
response carries the value the application returned. -/
theorem C20_application (c : Ctx) (w : W) (m : Msg) (addr v : U8) (hm : Request m 11 [w.v.nick, addr, v])
    (h : writeEnable (w.ps (Ps.addrFlags c)) = true) (hk : appServed c 0 addr = true) :
    ∃ x z ok, (handle c m w).out = w.out ++ [.appWrite 0 addr v x] ++ z ++ [.tx (event c w.v.nick 3 10 [addr, x]) ok] ∧
      ∀ o ∈ z, storesZone c o := by
  have hn := (appServed_iff.1 hk).1
  have ha : accepted c w 0 addr = true := by unfold accepted; rwa [if_neg hn]
  rw [handle_write c w m addr v hm, writeRegister_app ha hk]
  simp only [if_true]
  exact ⟨_, _, _, by rw [sent_out]; rfl, appStores_trace c _ 0 addr v⟩

/-- C20: control flags, user id and page select hold the written value after a write. -/
theorem C20_stored (c : Ctx) (w : W) (m : Msg) (addr v : U8) (hm : Request m 11 [w.v.nick, addr, v])
    (h : addr.toNat ∈ [0x83, 0x84, 0x85, 0x86, 0x87, 0x88, 0x92, 0x93]) :
    (Core.readRegister c 0 addr (handle c m w)).1 = v := by
  have ha : accepted c w 0 addr = true ∧ 0x80 ≤ addr.toNat := by
    simp only [List.mem_cons, List.not_mem_nil, or_false] at h
    have : 0x80 ≤ addr.toNat := by omega
    refine ⟨?_, this⟩
    unfold accepted
    rw [if_pos ⟨rfl, this⟩]
    simp only [writable, List.contains_eq_mem, List.mem_cons, decide_eq_true_eq]
    omega
  have hk : appServed c 0 addr = false := by simp [appServed, ha.2]
  rw [handle_write c w m addr v hm]
  simp only [writeRegister_accepted ha.1, if_true]
  rw [writeRegister_vscp_truthful ha.1 ha.2 v (w' := sent c _ _) ⟨by simp, by simp, by simp, by simp⟩, writeRegister_value h]

/-- C20 does not hold for the paged feature of the decision matrix: a too big index is confirmed, but not stored. -/
theorem C20_violated_paged :
    let c : Ctx := { Ex.ctx with dmPaged := true, logger := false }
    let w := runOps c [.init fun _ => true] (powerUp fun _ => 0xFF)
    ∃ m, Request m 11 [w.v.nick, 0x7E, 200] ∧
      frames ((handle c m w).out.drop w.out.length) = [event c w.v.nick 3 10 [0x7E, 200]] ∧
      (Core.readRegister c 0 0x7E (handle c m w)).1 = 0 := by
  refine ⟨Ex.msg 0 11 7 [0xFF, 0x7E, 200], ⟨rfl, rfl, rfl, ?_⟩, ?_, ?_⟩ <;> decide +kernel

-- A node with nickname 5 confirms a write of 0xC3 to the control flags.
example : let w := { powerUp (fun _ => 0xA0) with v := { (powerUp fun _ => 0xA0).v with nick := 5 } }
    Request (Ex.msg 0 11 7 [5, 0x83, 0xC3]) 11 [w.v.nick, 0x83, 0xC3] ∧ appServed Ex.ctx 0 0x83 = false ∧
    appServed Ex.ctx 0 0x10 = true ∧ writeEnable (w.ps (Ps.addrFlags Ex.ctx)) = true ∧
    (handle Ex.ctx (Ex.msg 0 11 7 [5, 0x83, 0xC3]) w).out =
      [.psW 3 0xC3, .tx (event Ex.ctx 5 3 10 [0x83, 0xC3]) true] := by
  refine ⟨⟨rfl, rfl, rfl, rfl⟩, ?_⟩; decide +kernel

/-! ### C26 -/

theorem handle_inc (c : Ctx) (w : W) (m : Msg) (addr d : U8)
    (hm : Request m 29 [w.v.nick, addr] ∧ d = 1 ∨ Request m 30 [w.v.nick, addr] ∧ d = -1) :
    handle c m w = (let q := Core.readRegister c 0 addr w
      let r := Core.writeRegister c 0 addr (q.1 + d) q.2
      if r.1.2 = false then sent c (event c r.2.v.nick 3 10 [addr, r.1.1]) r.2 else r.2) := by
  rcases hm with ⟨hm, rfl⟩ | ⟨hm, rfl⟩
  all_goals
    have h0 : m.data[0] = w.v.nick := hm.at 0 (by simp) (by simp)
    have h1 : m.data[1] = addr := hm.at 1 (by simp) (by simp)
    have hs : m.size = 2 := hm.size
    rw [handle]
    first | rw [dispatch_29 c m hm.typ] | rw [dispatch_30 c m hm.typ]
    first | unfold Core.handleIncrementRegister | unfold Core.handleDecrementRegister
    simp only [bind_run, get_run, whenM_run, h0, h1, hs]
    rw [if_pos ⟨trivial, trivial⟩]
    try rw [BitVec.sub_eq_add_neg]
    split
    · rw [Core.sendRegisterReadWriteRsp, txVoid_run _ _ _ _ (by simp)]
    · rfl

/-- C26: an increment (decrement) event for control flags, user id or page select leaves the register one higher (lower)
modulo 256, and confirms the new value. -/
theorem C26_step (c : Ctx) (w : W) (m : Msg) (addr d : U8)
    (hm : Request m 29 [w.v.nick, addr] ∧ d = 1 ∨ Request m 30 [w.v.nick, addr] ∧ d = -1)
    (h : addr.toNat ∈ [0x83, 0x84, 0x85, 0x86, 0x87, 0x88, 0x92, 0x93]) :
    (Core.readRegister c 0 addr (handle c m w)).1 = (Core.readRegister c 0 addr w).1 + d ∧
    frames ((handle c m w).out.drop w.out.length) = [event c w.v.nick 3 10 [addr, (Core.readRegister c 0 addr w).1 + d]] := by
  have hx : 0x80 ≤ addr.toNat ∧ writable addr = true ∧ addr ≠ 0x80 := by
    simp only [List.mem_cons, List.not_mem_nil, or_false] at h
    refine ⟨by omega, ?_, fun e => by rw [e] at h; revert h; decide⟩
    simp only [writable, List.contains_eq_mem, List.mem_cons, decide_eq_true_eq]
    omega
  have hacc : ∀ w, accepted c w 0 addr = true := fun w => by unfold accepted; rw [if_pos ⟨rfl, hx.1⟩]; exact hx.2.1
  have hk : appServed c 0 addr = false := by simp [appServed, hx.1]
  rw [handle_inc c w m addr d hm]
  have hq : (Core.readRegister c 0 addr w).2 = w := by rw [not_appServed hk, alarmRead, if_neg (fun e => hx.2.2 e.2)]
  simp only [hq, writeRegister_accepted (hacc _), if_true]
  generalize (Core.readRegister c 0 addr w).1 = v
  constructor
  · rw [writeRegister_vscp_truthful (hacc w) hx.1 (v + d) (w' := sent c _ _) ⟨by simp, by simp, by simp, by simp⟩,
      writeRegister_value h]
  · obtain ⟨t, ht, hf⟩ := writeRegister_quiet c 0 addr (v + d) w
    rw [sent_out, ht, List.append_assoc, List.drop_left, frames_append, hf, writeRegister_value h,
      writeRegister_nick h]
    rfl

/-- C26: for an application register the application is asked for the value, and gets the value changed by one. -/
theorem C26_application (c : Ctx) (w : W) (m : Msg) (addr d : U8)
    (hm : Request m 29 [w.v.nick, addr] ∧ d = 1 ∨ Request m 30 [w.v.nick, addr] ∧ d = -1)
    (h : writeEnable (w.ps (Ps.addrFlags c)) = true) (hk : appServed c 0 addr = true) :
    ∃ v x z ok, (handle c m w).out = w.out ++ [.appRead 0 addr v] ++ [.appWrite 0 addr (v + d) x] ++ z ++
      [.tx (event c w.v.nick 3 10 [addr, x]) ok] ∧ ∀ o ∈ z, storesZone c o := by
  have hn := (appServed_iff.1 hk).1
  rw [handle_inc c w m addr d hm, appServed_run hk]
  have ha : ∀ w : W, writeEnable (w.ps (Ps.addrFlags c)) = true → accepted c w 0 addr = true :=
    fun w h => by unfold accepted; rwa [if_neg hn]
  simp only
  rw [writeRegister_app (ha _ (by exact h)) hk]
  simp only [if_true]
  exact ⟨_, _, _, _, by rw [sent_out]; rfl, appStores_trace c _ 0 addr _⟩

-- The user id register 0x84 holding 0xFF is incremented to 0.
example : let w := { powerUp (fun _ => 0xFF) with v := { (powerUp fun _ => 0xFF).v with nick := 5 } }
    (Core.readRegister Ex.ctx 0 0x84 w).1 = 0xFF ∧
    (handle Ex.ctx (Ex.msg 0 29 7 [5, 0x84]) w).out = [.psW 4 0, .tx (event Ex.ctx 5 3 10 [0x84, 0]) true] ∧
    Request (Ex.msg 0 29 7 [5, 0x84]) 29 [w.v.nick, 0x84] := by
  refine ⟨?_, ?_, ⟨rfl, rfl, rfl, rfl⟩⟩ <;> decide +kernel

/-! ### C27 -/

/-- The bytes of the who-is-there response: GUID with the most significant byte first, MDF URL, one unused byte. -/
def identity (c : Ctx) (w : W) : List U8 :=
  ((List.range 16).map fun i => (DevData.getGuid c (15 - i) w).1) ++ ((List.range 32).map fun i => (DevData.getMdf c i w).1) ++ [0]

theorem r7 : List.range 7 = [0,1,2,3,4,5,6] := rfl
theorem r16 : List.range 16 = [0,1,2,3,4,5,6,7,8,9,10,11,12,13,14,15] := rfl
theorem r32 : List.range 32 = [0,1,2,3,4,5,6,7,8,9,10,11,12,13,14,15,16,17,18,19,20,21,22,23,24,25,26,27,28,29,30,31] := rfl
set_option maxRecDepth 8000 in
theorem who_key (g : Nat → U8) (f : Nat → U8) :
      (let p := whoPure (((List.range 16).map fun i => 15 - i).map g) [0] 1
       let q := whoPure ((List.range 32).map f) p.2.1 p.2.2
       p.1 ++ (q.1 ++ [q.2.1 ++ List.replicate (8 - q.2.1.length) 0])) =
      (List.range 7).map (numbered (((List.range 16).map fun i => g (15 - i)) ++ ((List.range 32).map f) ++ [0])) := by
  simp only [r7, r16, r32, List.map_cons, List.map_nil, numbered]
  simp [whoPure]

/-- C27: a who-is-there event for the node, or for all nodes, is answered by seven numbered frames which carry GUID
and MDF URL; nothing else happens. -/
theorem C27_answer (c : Ctx) (w : W) (m : Msg) (a : U8) (hm : Request m 31 [a]) (ha : a = w.v.nick ∨ a = 0xFF) :
    ∃ t txErr, handle c m w = { w with out := w.out ++ t, tp := { w.tp with txErr := txErr } } ∧ t.length = 7 ∧
      frames t = (List.range 7).map fun i => event c w.v.nick 3 32 (numbered (identity c w) i) := by
  have h0 : m.data[0] = a := hm.at 0 (by simp) (by simp)
  have hs : m.size = 1 := hm.size
  rw [handle, dispatch_31 c m hm.typ]
  unfold Core.handleWhoIsThere
  simp only [bind_run, get_run, whenM_run, h0, hs]
  rw [if_pos ⟨trivial, ha.imp Eq.symm Eq.symm⟩]
  rw [whoLoop_run c (DevData.getGuid c) (fun i => (DevData.getGuid c i w).1) w.ps (fun i w' h => getGuid_ps c i h) _ _ _ (by simp) rfl]
  simp only
  rw [whoLoop_run c (DevData.getMdf c) (fun i => (DevData.getMdf c i w).1) w.ps (fun i w' h => getMdf_ps c i h) _ _ _
    (whoPure_length _ _ _ (by simp)) (by simp)]
  simp only
  have hlen := whoPure_length ((List.range 32).map fun i => (DevData.getMdf c i w).1)
    (whoPure (((List.range 16).map fun i => 15 - i).map fun i => (DevData.getGuid c i w).1) [0] 1).2.1
    (whoPure (((List.range 16).map fun i => 15 - i).map fun i => (DevData.getGuid c i w).1) [0] 1).2.2
    (whoPure_length _ _ _ (by simp))
  rw [txVoid_run _ _ _ _ (by simp only [List.length_append, List.length_replicate]; omega)]
  have key' := who_key (fun i => (DevData.getGuid c i w).1) (fun i => (DevData.getMdf c i w).1)
  simp only at key'
  have e : ∀ (l : List U8) (w' : W), sent c (frame c w' 3 32 l) w' = sendAll c 3 32 [l] w' := fun l w' => rfl
  rw [e, ← sendAll_append, ← sendAll_append, key']
  obtain ⟨t, txErr, h1, h2, h3⟩ := sendAll_run c 3 32 ((List.range 7).map (numbered (identity c w))) w
  refine ⟨t, txErr, h1, by rw [h3]; simp, ?_⟩
  rw [h2]
  simp [List.map_map, Function.comp_def]

/-- C27: every other who-is-there event is ignored. -/
theorem C27_ignored (c : Ctx) (w : W) (m : Msg) (h : m.typ = 31)
    (hn : m.size ≠ 1 ∨ (m.data[0] ≠ w.v.nick ∧ m.data[0] ≠ 0xFF)) : handle c m w = w := by
  rw [handle, dispatch_31 c m h]
  unfold Core.handleWhoIsThere
  simp only [bind_run, get_run, whenM_run]
  rw [if_neg]
  rintro ⟨h1, h2⟩
  rcases hn with hn | hn
  · exact hn h1
  · exact h2.elim (fun h => hn.1 h.symm) (fun h => hn.2 h.symm)

-- The first and the last frame of the answer of a restored node.
example : let w := runOps Ex.ctx [.init fun _ => true] (powerUp fun _ => 0xFF)
    Request (Ex.msg 0 31 7 [0xFF]) 31 [0xFF] ∧
    (frames ((handle Ex.ctx (Ex.msg 0 31 7 [0xFF]) w).out.drop w.out.length)).map payload =
      [[0, 1, 2, 3, 4, 5, 6, 7], [1, 8, 9, 10, 11, 12, 13, 14], [2, 15, 16, 97, 98, 99, 46, 100], [3, 101, 0, 0, 0, 0, 0, 0],
       [4, 0, 0, 0, 0, 0, 0, 0], [5, 0, 0, 0, 0, 0, 0, 0], [6, 0, 0, 0, 0, 0, 0, 0]] := by
  refine ⟨⟨rfl, rfl, rfl, rfl⟩, ?_⟩; decide +kernel

/-! ### C28 -/

/-- C28: a get matrix info event for the node is answered by one frame: number of rows, offset and start page of the
decision matrix; zeros if there is no decision matrix. -/
theorem C28_answer (c : Ctx) (w : W) (m : Msg) (hm : Request m 33 [w.v.nick]) (hstd : c.dmPaged = false) :
    ∃ ok txErr, handle c m w = { w with
      out := w.out ++ [.tx (event c w.v.nick 3 34 (if c.dm = true then
        [BitVec.ofNat 8 c.dmRows, c.dmOffset, BitVec.ofNat 8 (c.dmPage / 256), BitVec.ofNat 8 c.dmPage]
        else [0, 0, 0, 0])) ok]
      tp := { w.tp with txErr := txErr } } := by
  have h0 : m.data[0] = w.v.nick := hm.at 0 (by simp) (by simp)
  have hs : m.size = 1 := hm.size
  have e1 : wordMsb (Dm.getPage c) = BitVec.ofNat 8 (c.dmPage / 256) := by
    rw [wordMsb_eq]; apply BitVec.eq_of_toNat_eq
    simp [Dm.getPage, Dm.startPage, hstd]; omega
  have e2 : wordLsb (Dm.getPage c) = BitVec.ofNat 8 c.dmPage := by
    rw [wordLsb_eq]; apply BitVec.eq_of_toNat_eq
    simp [Dm.getPage, Dm.startPage, hstd]
  have e3 : Dm.getMatrixOffset c = c.dmOffset := by simp [Dm.getMatrixOffset, Dm.startOffset, hstd]
  rw [handle, dispatch_33 c m hm.typ]
  unfold Core.handleGetDecisionMatrixInfo
  simp only [bind_run, get_run, whenM_run, h0, hs]
  rw [if_pos ⟨trivial, trivial⟩, txVoid_run _ _ _ _ (by split <;> simp), sent, Transport.countErr_eq, e1, e2, e3]
  exact ⟨_, _, rfl⟩

/-- C28: every other get matrix info event is ignored. -/
theorem C28_ignored (c : Ctx) (w : W) (m : Msg) (h : m.typ = 33) (hn : m.size ≠ 1 ∨ m.data[0] ≠ w.v.nick) :
    handle c m w = w := by
  rw [handle, dispatch_33 c m h]
  unfold Core.handleGetDecisionMatrixInfo
  simp only [bind_run, get_run, whenM_run]
  rw [if_neg]
  rintro ⟨h1, h2⟩
  rcases hn with hn | hn
  · exact hn h1
  · exact hn h2.symm

/-- C28: with the paged feature the matrix is announced at page 0, offset 0x7E. -/
theorem C28_answer_paged (c : Ctx) (w : W) (m : Msg) (hm : Request m 33 [w.v.nick]) (hp : c.dmPaged = true) (hd : c.dm = true) :
    frames ((handle c m w).out.drop w.out.length) = [event c w.v.nick 3 34 [BitVec.ofNat 8 c.dmRows, 0x7E, 0, 0]] := by
  have h0 : m.data[0] = w.v.nick := hm.at 0 (by simp) (by simp)
  have hs : m.size = 1 := hm.size
  have e1 : Dm.getPage c = 0 := by simp [Dm.getPage, Dm.startPage, hp]
  have e3 : Dm.getMatrixOffset c = 0x7E := by simp [Dm.getMatrixOffset, Dm.startOffset, hp]
  rw [handle, dispatch_33 c m hm.typ]
  unfold Core.handleGetDecisionMatrixInfo
  simp only [bind_run, get_run, whenM_run, h0, hs]
  rw [if_pos ⟨trivial, trivial⟩, txVoid_run _ _ _ _ (by split <;> simp), sent_out, List.drop_left, e1, e3, if_pos hd]
  rfl

example : Request (Ex.msg 0 33 7 [5]) 33 [5] ∧ Ex.ctx.dmPaged = false := ⟨⟨rfl, rfl, rfl, rfl⟩, rfl⟩

end Vscp.Registers
