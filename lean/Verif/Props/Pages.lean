/-
Property theorems: page reads and page writes (C22, C23, C25).
-/
import Verif.Lemmas.Pages
import Verif.Example.Ctx

namespace Vscp.Pages
open M Spec

/-- The node after the handling of a protocol event. -/
abbrev handle (c : Ctx) (m : Msg) (w : W) : W := (Core.handleProtocolClassType c m w).2

/-! ### C22 -/

/-- What a page read event does: the registers from `addr` on, but not register 0xFF, are sent in numbered frames with up to
seven registers each. -/
theorem page_read (c : Ctx) (w : W) (m : Msg) (addr n : U8) (hm : Request m 24 [w.v.nick, addr, n]) :
    ∃ t vs txErr, handle c m w = { w with
        v := { w.v with alarm := if w.v.page = 0 ∧ 0x80 ∈ addresses addr (min n.toNat (255 - addr.toNat)) then 0 else w.v.alarm }
        tp := { w.tp with txErr := txErr }
        out := w.out ++ t } ∧
      frames t = ((List.range ((min n.toNat (255 - addr.toNat) + 6) / 7)).map fun i => event c w.v.nick 3 26 (numbered vs i)) ∧
      Values c w.v.page w (addresses addr (min n.toNat (255 - addr.toNat))) vs (appReads t) := by
  have h0 : m.data[0] = w.v.nick := hm.at 0 (by simp) (by simp)
  have h1 : m.data[1] = addr := hm.at 1 (by simp) (by simp)
  have h2 : m.data[2] = n := hm.at 2 (by simp) (by simp)
  have hs : m.size = 3 := hm.size
  have hk : Core.limitNum addr n = min n.toNat (255 - addr.toNat) := by
    unfold Core.limitNum
    have := n.isLt; have := addr.isLt
    split <;> omega
  rw [handle, dispatch_24 c m hm.typ]
  unfold Core.handlePageRead
  simp only [bind_run, get_run, whenM_run, h0, h1, h2, hs, hk]
  rw [if_pos ⟨trivial, trivial⟩]
  generalize hkk : min n.toNat (255 - addr.toNat) = k
  have hk256 : k ≤ 256 := by have := n.isLt; omega
  obtain ⟨t, vs, e, hr, hf, hd⟩ := pageReadLoop_run c addr k 0 [0] (by simp) (by omega) w
  have hz : addr + BitVec.ofNat 8 0 = addr := by simp
  rw [hz] at hr hd
  rw [hr]
  simp only
  have hch := pagePure_chunks vs [] 0 (by simp)
  have hnum := chunks_numbered vs 0 (by omega)
  simp only [List.nil_append, Nat.mul_zero, List.drop_zero, Nat.sub_zero, Nat.zero_add] at hch hnum
  rw [show BitVec.ofNat 8 0 = 0 from rfl] at hnum
  have hlen : vs.length = k := by rw [hd.length]; simp [addresses]
  rw [hnum, hlen] at hch
  unfold lastPart at hch
  by_cases hl : 1 < (pagePure vs [0]).2.length
  · rw [if_pos hl] at hch ⊢
    have hl8 : (pagePure vs [0]).2.length ≤ 8 := by
      have := Foot.pageReadLoop_length (c := c) (addr := addr) k 0 [0] (by simp) w
      rw [hr] at this; exact Nat.le_of_lt this
    rw [txVoid_run _ _ _ _ hl8]
    generalize hW : readFrame w (if w.v.page = 0 ∧ 128 ∈ addresses addr k then 0 else w.v.alarm) e t = W
    refine ⟨t ++ [.tx (event c w.v.nick 3 26 (pagePure vs [0]).2) (c.txOk (w.out ++ t).length)], vs,
      (sent c (frame c W 3 26 (pagePure vs [0]).2) W).tp.txErr, ?_, ?_, ?_⟩
    · rw [sent, Transport.countErr_eq, ← hW]
      simp only [readFrame, List.append_assoc]
    · have hmm := congrArg (List.map (event c w.v.nick 3 26)) hch
      rw [List.map_map, List.map_append] at hmm
      rw [frames_append, hf]
      exact hmm
    · rw [appReads_append]
      simpa [appReads] using hd
  · rw [if_neg hl] at hch ⊢
    refine ⟨t, vs, e, rfl, ?_, hd⟩
    have hmm := congrArg (List.map (event c w.v.nick 3 26)) hch
    rw [List.map_map, List.append_nil] at hmm
    rw [hf]
    exact hmm

/-- C22, partial: a page read event for the node delivers exactly the requested registers of the selected page in numbered
frames, seven per frame.  Missing: register 0xFF of the page, see `C22_violated`. -/
theorem C22_page_read_partial (c : Ctx) (w : W) (m : Msg) (addr n : U8) (hm : Request m 24 [w.v.nick, addr, n])
    (hn : addr.toNat + n.toNat ≤ 255) :
    ∃ t vs, (handle c m w).out = w.out ++ t ∧
      frames t = ((List.range ((n.toNat + 6) / 7)).map fun i => event c w.v.nick 3 26 (numbered vs i)) ∧
      Values c w.v.page w (addresses addr n.toNat) vs (appReads t) := by
  obtain ⟨t, vs, e, h1, h2, h3⟩ := page_read c w m addr n hm
  have hk : min n.toNat (255 - addr.toNat) = n.toNat := by omega
  rw [hk] at h1 h2 h3
  exact ⟨t, vs, by rw [h1], h2, h3⟩

/-- C17: a page read changes nothing in the node but the alarm status (if it is read) and the transmission error counter. -/
theorem C17_page_read_event (c : Ctx) (w : W) (m : Msg) (addr n : U8) (hm : Request m 24 [w.v.nick, addr, n]) :
    ∃ t al txErr, handle c m w = { w with v := { w.v with alarm := al }, tp := { w.tp with txErr := txErr }, out := w.out ++ t } ∧
      (al = w.v.alarm ∨ al = 0 ∧ w.v.page = 0 ∧ 0x80 ∈ addresses addr n.toNat) := by
  obtain ⟨t, vs, e, h1, h2, h3⟩ := page_read c w m addr n hm
  refine ⟨t, _, e, h1, ?_⟩
  split
  · rename_i h
    refine .inr ⟨rfl, h.1, ?_⟩
    have hsub : ∀ k k' : Nat, k ≤ k' → ∀ x ∈ addresses addr k, x ∈ addresses addr k' := by
      intro k k' hkk x hx
      simp only [addresses, List.mem_map, List.mem_range] at hx ⊢
      obtain ⟨i, hi, e⟩ := hx
      exact ⟨i, by omega, e⟩
    exact hsub _ _ (by omega) _ h.2
  · exact .inl rfl

/-- C22 does not hold for the last register of a page: a page read of register 0xFF is not answered at all. -/
theorem C22_violated (c : Ctx) (w : W) (m : Msg) (hm : Request m 24 [w.v.nick, 0xFF, 1]) :
    frames ((handle c m w).out.drop w.out.length) = [] := by
  obtain ⟨t, vs, e, h1, h2, h3⟩ := page_read c w m 0xFF 1 hm
  rw [h1]
  simp only [List.drop_left]
  rw [h2]; rfl

-- A page read of nine registers of the MDF URL is answered by two frames.
example : let w := runOps Ex.ctx [.init fun _ => true] (powerUp fun _ => 0xFF)
    Request (Ex.msg 0 24 7 [0xFF, 0xE0, 9]) 24 [w.v.nick, 0xE0, 9] ∧
    (frames ((handle Ex.ctx (Ex.msg 0 24 7 [0xFF, 0xE0, 9]) w).out.drop w.out.length)).map payload =
      [[0, 97, 98, 99, 46, 100, 101, 0], [1, 0, 0]] := by
  refine ⟨⟨rfl, rfl, rfl, ?_⟩, ?_⟩ <;> decide +kernel
example : Request (Ex.msg 0 24 7 [0xFF, 0xFF, 1]) 24 [0xFF, 0xFF, 1] := ⟨rfl, rfl, rfl, rfl⟩

/-! ### C25 -/

theorem mkWord_eq (hi lo : U8) : mkWord hi lo = BitVec.ofNat 16 (hi.toNat * 256 + lo.toNat) := by
  apply BitVec.eq_of_toNat_eq
  unfold mkWord
  simp only [BitVec.toNat_or, BitVec.toNat_shiftLeft, BitVec.toNat_setWidth, BitVec.toNat_ofNat]
  have h1 := hi.isLt
  have h2 := lo.isLt
  rw [Nat.mod_eq_of_lt (by omega : hi.toNat < 2 ^ 16), Nat.mod_eq_of_lt (by omega : lo.toNat < 2 ^ 16)]
  have h3 : hi.toNat <<< 8 = hi.toNat * 256 := by rw [Nat.shiftLeft_eq]
  rw [Nat.mod_eq_of_lt (by omega : hi.toNat <<< 8 < 2 ^ 16), ← Nat.shiftLeft_add_eq_or_of_lt (by omega : lo.toNat < 2 ^ 8), h3]
  omega

/-- The node after a transmission, in terms of what a user sees. -/
theorem sent_shape (c : Ctx) (w1 : W) (m : Msg) (r : W) (h : ∃ t, r.out = w1.out ++ t ∧ frames t = []) :
    ∃ t txErr, sent c m r = { r with tp := { r.tp with txErr := txErr }, out := w1.out ++ t } ∧ frames t = [m] := by
  obtain ⟨t, h1, h2⟩ := h
  refine ⟨t ++ [.tx m (c.txOk r.out.length)], (sent c m r).tp.txErr, ?_, ?_⟩
  · rw [sent, Transport.countErr_eq]
    simp only [h1, List.append_assoc]
  · rw [frames_append, h2]; rfl

/-- C25: an extended page write event for the node writes its one to four bytes to consecutive registers of the given
page, limited to the end of the page, one after the other; then one response with page, register and the values of the
single writes is sent.  Nothing else happens. -/
theorem C25_extended_page_write (c : Ctx) (w : W) (m : Msg) (pm pl addr : U8) (vs : List U8)
    (hm : Request m 38 ([w.v.nick, pm, pl, addr] ++ vs)) (h1 : 1 ≤ vs.length) (h4 : vs.length ≤ 4) :
    let k := min vs.length (256 - addr.toNat)
    let r := writeRegs c (BitVec.ofNat 16 (pm.toNat * 256 + pl.toNat)) ((addresses addr k).zip (vs.take k)) w
    ∃ t txErr, handle c m w = { r.2 with tp := { r.2.tp with txErr := txErr }, out := w.out ++ t } ∧
      frames t = [event c w.v.nick 3 39 ([0, pm, pl, addr] ++ r.1)] := by
  intro k r
  have h8 : ([w.v.nick, pm, pl, addr] ++ vs).length ≤ 8 := by simp; omega
  have e0 : m.data[0] = w.v.nick := hm.at 0 (by simp) h8
  have e1 : m.data[1] = pm := hm.at 1 (by simp) h8
  have e2 : m.data[2] = pl := hm.at 2 (by simp) h8
  have e3 : m.data[3] = addr := hm.at 3 (by simp) h8
  have hs : m.size.toNat = 4 + vs.length := by rw [hm.size]; simp; omega
  have hn : (m.size - 4).toNat = vs.length := by rw [BitVec.toNat_sub]; simp [hs]; omega
  have hk : (if (0xFF - (m.size - 4).toNat) + 1 < addr.toNat then (0xFF - addr.toNat) + 1 else (m.size - 4).toNat) = k := by
    rw [hn]; have := addr.isLt; split <;> omega
  rw [handle, dispatch_38 c m hm.typ]
  unfold Core.handleExtendedPageWriteRegister
  simp only [bind_run, get_run, whenM_run, e0, e1, e2, e3, hk]
  rw [if_pos ⟨by omega, trivial⟩, extWriteLoop_run c m _ addr k 0 _ (by omega), mkWord_eq]
  have hw := writeList_request (hd := [w.v.nick, pm, pl, addr]) hm h8 addr k (by omega)
  rw [show [w.v.nick, pm, pl, addr].length = 4 from rfl] at hw
  rw [hw]
  change ∃ t txErr, (Core.txFrom c w.v.nick 3 39 ([0, pm, pl, addr] ++ r.1) r.2).2 = _ ∧ _
  have hl : ([0, pm, pl, addr] ++ r.1).length ≤ 8 := by
    have : r.1.length = k := by rw [writeRegs_length]; simp [addresses]; omega
    simp [this]; omega
  rw [txFrom_run _ _ _ _ _ hl]
  exact sent_shape c w _ _ (writeRegs_quiet _ _ _ _)

/-- An extended page write which is not for this node is ignored. -/
theorem C25_ignored (c : Ctx) (w : W) (m : Msg) (ht : m.typ = 38) (h : m.size.toNat < 5 ∨ m.data[0] ≠ w.v.nick) :
    handle c m w = w := by
  rw [handle, dispatch_38 c m ht]
  unfold Core.handleExtendedPageWriteRegister
  simp only [bind_run, get_run, whenM_run]
  rw [if_neg]
  rintro ⟨h1, h2⟩
  rcases h with h | h
  · omega
  · exact h h2.symm

/-- Two registers of the user id are written by an event to page 0, register 0x84. -/
example : let w := runOps Ex.ctx [.init fun _ => true] (powerUp fun _ => 0xFF)
    let m := Ex.msg 0 38 7 [0xFF, 0, 0, 0x84, 11, 22]
    Request m 38 ([w.v.nick, 0, 0, 0x84] ++ [11, 22]) ∧
    ((handle Ex.ctx m w).ps (Ps.addrUserId Ex.ctx), (handle Ex.ctx m w).ps (Ps.addrUserId Ex.ctx + 1)) = (11, 22) ∧
    (frames ((handle Ex.ctx m w).out.drop w.out.length)).map payload = [[0, 0, 0, 0x84, 11, 22]] := by
  refine ⟨⟨rfl, rfl, rfl, ?_⟩, ?_, ?_⟩ <;> decide +kernel

/-! ### C23 -/

/-- C23, partial: a page write event for the node writes its bytes to consecutive registers of the selected page, one
after the other; then one response with the values of the single writes is sent.  Nothing else happens.
Missing: register 0xFF (`C23_violated_end`) and writes which change the selected page (`C23_violated_select`). -/
theorem C23_page_write_partial (c : Ctx) (w : W) (m : Msg) (addr : U8) (vs : List U8)
    (hm : Request m 25 ([w.v.nick, addr] ++ vs)) (h1 : 1 ≤ vs.length) (h6 : vs.length ≤ 6)
    (hend : addr.toNat + vs.length ≤ 255)
    (hsel : w.v.page = 0 → 0x92 ∉ addresses addr vs.length ∧ 0x93 ∉ addresses addr vs.length) :
    let r := writeRegs c w.v.page ((addresses addr vs.length).zip vs) w
    ∃ t txErr, handle c m w = { r.2 with tp := { r.2.tp with txErr := txErr }, out := w.out ++ t } ∧
      frames t = [event c w.v.nick 3 26 ([0] ++ r.1)] := by
  intro r
  have h8 : ([w.v.nick, addr] ++ vs).length ≤ 8 := by simp; omega
  have e0 : m.data[0] = w.v.nick := hm.at 0 (by simp) h8
  have e1 : m.data[1] = addr := hm.at 1 (by simp) h8
  have hs : m.size.toNat = 2 + vs.length := by rw [hm.size]; simp; omega
  have hn : (m.size - 2).toNat = vs.length := by rw [BitVec.toNat_sub]; simp [hs]; omega
  have hk : Core.limitNum addr (m.size - 2) = vs.length := by
    unfold Core.limitNum; rw [hn]; split <;> omega
  have hw := writeList_request (hd := [w.v.nick, addr]) hm h8 addr vs.length (by omega)
  rw [show [w.v.nick, addr].length = 2 from rfl, List.take_length] at hw
  rw [handle, dispatch_25 c m hm.typ]
  unfold Core.handlePageWrite
  simp only [bind_run, get_run, whenM_run, e0, e1, hk]
  rw [if_pos ⟨by omega, trivial⟩, pageWriteLoop_run c m addr _ 0 _ (by omega)]
  · rw [hw]
    change ∃ t txErr, (Core.txFrom c w.v.nick 3 26 ([0] ++ r.1) r.2).2 = _ ∧ _
    have hl : ([0] ++ r.1).length ≤ 8 := by
      have : r.1.length = vs.length := by rw [writeRegs_length]; simp [addresses]
      simp [this]; omega
    rw [txFrom_run _ _ _ _ _ hl]
    exact sent_shape c w _ _ (writeRegs_quiet _ _ _ _)
  · intro h0 x hx
    rw [hw] at hx
    have hx' := (List.of_mem_zip (a := x.1) (b := x.2) hx).1
    obtain ⟨h2, h3⟩ := hsel h0
    exact ⟨fun e => h2 (e ▸ hx'), fun e => h3 (e ▸ hx')⟩

/-- A page write which is not for this node is ignored. -/
theorem C23_ignored (c : Ctx) (w : W) (m : Msg) (ht : m.typ = 25) (h : m.size.toNat < 3 ∨ m.data[0] ≠ w.v.nick) :
    handle c m w = w := by
  rw [handle, dispatch_25 c m ht]
  unfold Core.handlePageWrite
  simp only [bind_run, get_run, whenM_run]
  rw [if_neg]
  rintro ⟨h1, h2⟩
  rcases h with h | h
  · omega
  · exact h h2.symm

/-- Three registers of the user id are written. -/
example : let w := runOps Ex.ctx [.init fun _ => true] (powerUp fun _ => 0xFF)
    let m := Ex.msg 0 25 7 [0xFF, 0x85, 11, 22, 33]
    Request m 25 ([w.v.nick, 0x85] ++ [11, 22, 33]) ∧ w.v.page = 0 ∧ 0x92 ∉ addresses 0x85 3 ∧ 0x93 ∉ addresses 0x85 3 ∧
    (List.range 5).map (fun i => (handle Ex.ctx m w).ps (Ps.addrUserId Ex.ctx + i)) = [0, 11, 22, 33, 0] ∧
    (frames ((handle Ex.ctx m w).out.drop w.out.length)).map payload = [[0, 11, 22, 33]] := by
  refine ⟨⟨rfl, rfl, rfl, ?_⟩, ?_, ?_, ?_, ?_, ?_⟩ <;> decide +kernel

/-- C23 does not hold at the end of a page: a write to register 0xFF writes nothing, whatever the page. -/
theorem C23_violated_end (c : Ctx) (w : W) (m : Msg) (v : U8) (hm : Request m 25 [w.v.nick, 0xFF, v]) :
    ∃ t txErr, handle c m w = { w with tp := { w.tp with txErr := txErr }, out := w.out ++ t } ∧
      frames t = [event c w.v.nick 3 26 [0]] := by
  have e0 : m.data[0] = w.v.nick := hm.at 0 (by simp) (by simp)
  have e1 : m.data[1] = 0xFF := hm.at 1 (by simp) (by simp)
  have hs : m.size = 3 := hm.size
  rw [handle, dispatch_25 c m hm.typ]
  unfold Core.handlePageWrite
  simp only [bind_run, get_run, whenM_run, e0, e1, hs]
  rw [if_pos ⟨by decide, trivial⟩]
  have hk : Core.limitNum 0xFF (3 - 2) = 0 := rfl
  rw [hk]
  change ∃ t txErr, (Core.txFrom c w.v.nick 3 26 [0] w).2 = _ ∧ _
  rw [txFrom_run _ _ _ _ _ (by simp)]
  exact sent_shape c w _ _ ⟨[], by simp, rfl⟩

/-- Register 0xFF of an application page accepts single writes. -/
example : let w := runOps Ex.ctx [.init fun _ => true] (powerUp fun _ => 0xFF)
    Request (Ex.msg 0 25 7 [0xFF, 0xFF, 1]) 25 [w.v.nick, 0xFF, 1] ∧
    (Core.writeRegister Ex.ctx 9 0xFF 1 w).1.2 = false := by
  refine ⟨⟨rfl, rfl, rfl, ?_⟩, ?_⟩ <;> decide +kernel

/-- C23 does not hold when the page select registers are written: the following bytes go to another page. -/
theorem C23_violated_select : let w := runOps Ex.ctx [.init fun _ => true] (powerUp fun _ => 0xFF)
    let m := Ex.msg 0 25 7 [0xFF, 0x92, 9, 5]
    Request m 25 ([w.v.nick, 0x92] ++ [9, 5]) ∧ w.v.page = 0 ∧
    (writeRegs Ex.ctx 0 [(0x92, 9), (0x93, 5)] w).2.v.page = 0x0905 ∧
    (handle Ex.ctx m w).v.page = 0x0900 ∧ .appWrite 0x0900 0x93 5 0x5A ∈ (handle Ex.ctx m w).out := by
  refine ⟨⟨rfl, rfl, rfl, ?_⟩, ?_, ?_, ?_, ?_⟩ <;> decide +kernel

end Vscp.Pages
