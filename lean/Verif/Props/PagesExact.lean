/-
Property theorems: exactly what a page read and a page write do (C22, C23).
-/
import Verif.Props.Pages

namespace Vscp.Spec

/-- Registers written one after the other, each of them on the page which is selected when its turn comes. -/
def writeSelected (c : Ctx) : List (U8 × U8) → W → List U8 × W
  | [], w => ([], w)
  | x :: l, w =>
    let r := Core.writeRegister c w.v.page x.1 x.2 w
    let s := writeSelected c l r.2
    (r.1.1 :: s.1, s.2)

end Vscp.Spec

namespace Vscp.Pages
open M Spec

/-- C22, exactly: a page read event for the node, whatever the registers, delivers the requested registers of the selected page
except register 0xFF and those behind it; it delivers all of them exactly if they end before register 0xFF. -/
theorem C22_page_read_exact (c : Ctx) (w : W) (m : Msg) (addr n : U8) (hm : Request m 24 [w.v.nick, addr, n]) :
    ∃ t vs, (handle c m w).out = w.out ++ t ∧
      frames t = ((List.range ((min n.toNat (255 - addr.toNat) + 6) / 7)).map fun i => event c w.v.nick 3 26 (numbered vs i)) ∧
      Values c w.v.page w (addresses addr (min n.toNat (255 - addr.toNat))) vs (appReads t) ∧
      vs.length = min n.toNat (255 - addr.toNat) ∧
      (vs.length = n.toNat ↔ addr.toNat + n.toNat ≤ 255 ∨ n = 0) := by
  obtain ⟨t, vs, e, h1, h2, h3⟩ := page_read c w m addr n hm
  have hl : vs.length = min n.toNat (255 - addr.toNat) := by rw [h3.length]; simp [addresses]
  refine ⟨t, vs, by rw [h1], h2, h3, hl, ?_⟩
  have h0 : n = 0 ↔ n.toNat = 0 := by rw [← BitVec.toNat_inj]; simp
  have := addr.isLt
  rw [hl, h0]
  omega

/-- Two registers from 0xFE on are asked for, one of them is delivered. -/
example : let w := runOps Ex.ctx [.init fun _ => true] (powerUp fun _ => 0xFF)
    Request (Ex.msg 0 24 7 [0xFF, 0xFE, 2]) 24 [w.v.nick, 0xFE, 2] ∧
    ((frames ((handle Ex.ctx (Ex.msg 0 24 7 [0xFF, 0xFE, 2]) w).out.drop w.out.length)).map payload).map List.length = [2] := by
  refine ⟨⟨rfl, rfl, rfl, ?_⟩, ?_⟩ <;> decide +kernel

theorem pageWriteLoop_selected (c : Ctx) (m : Msg) (addr : U8) (n index : Nat) (acc : List U8) (h : 2 + index + n ≤ 8) (w : W) :
    Core.pageWriteLoop c m addr n index acc w =
      (acc ++ (writeSelected c (writeList m 2 addr index n) w).1, (writeSelected c (writeList m 2 addr index n) w).2) := by
  induction n generalizing index acc w with
  | zero => simp [Core.pageWriteLoop, writeList, writeSelected]
  | succ n ih =>
    unfold Core.pageWriteLoop
    rw [bind_run, get_run]
    simp only
    rw [bind_run, dataAt_run m _ (by omega)]
    simp only [bind_run]
    have hc : writeList m 2 addr index (n + 1) =
        (addr + BitVec.ofNat 8 index, m.data.toList.getD (2 + index) 0) :: writeList m 2 addr (index + 1) n := by
      simp only [writeList, List.range'_succ, List.map_cons]
    rw [ih _ _ (by omega), hc]
    simp only [writeSelected, List.append_assoc, List.cons_append, List.nil_append]

theorem writeSelected_length (c : Ctx) (l : List (U8 × U8)) (w : W) : (writeSelected c l w).1.length = l.length := by
  induction l generalizing w with
  | nil => rfl
  | cons x l ih => simp [writeSelected, ih]

theorem writeSelected_quiet (c : Ctx) (l : List (U8 × U8)) (w : W) :
    ∃ t, (writeSelected c l w).2.out = w.out ++ t ∧ frames t = [] := by
  induction l generalizing w with
  | nil => exact ⟨[], by simp [writeSelected], rfl⟩
  | cons x l ih =>
    obtain ⟨t, h1, h2⟩ := writeRegister_quiet c w.v.page x.1 x.2 w
    obtain ⟨t', h3, h4⟩ := ih (Core.writeRegister c w.v.page x.1 x.2 w).2
    exact ⟨t ++ t', by rw [writeSelected]; simp only; rw [h3, h1, List.append_assoc], by rw [frames_append, h2, h4]; rfl⟩

/-- C23, exactly: a page write event for the node, whatever its bytes, writes them to consecutive registers from `addr` on, but not
to register 0xFF and those behind it, one after the other and each of them on the page which is selected when its turn comes;
then one response with the values of the single writes is sent, a value for every register written. -/
theorem C23_page_write_exact (c : Ctx) (w : W) (m : Msg) (addr : U8) (vs : List U8)
    (hm : Request m 25 ([w.v.nick, addr] ++ vs)) (h1 : 1 ≤ vs.length) (h6 : vs.length ≤ 6) :
    let k := min vs.length (255 - addr.toNat)
    let r := writeSelected c ((addresses addr k).zip (vs.take k)) w
    ∃ t txErr, handle c m w = { r.2 with tp := { r.2.tp with txErr := txErr }, out := w.out ++ t } ∧
      frames t = [event c w.v.nick 3 26 ([0] ++ r.1)] ∧ r.1.length = k := by
  intro k r
  have h8 : ([w.v.nick, addr] ++ vs).length ≤ 8 := by simp; omega
  have e0 : m.data[0] = w.v.nick := hm.at 0 (by simp) h8
  have e1 : m.data[1] = addr := hm.at 1 (by simp) h8
  have hs : m.size.toNat = 2 + vs.length := by rw [hm.size]; simp; omega
  have hn : (m.size - 2).toNat = vs.length := by rw [BitVec.toNat_sub]; simp [hs]; omega
  have hk : Core.limitNum addr (m.size - 2) = k := by
    have := addr.isLt
    unfold Core.limitNum; rw [hn]; split <;> omega
  have hw := writeList_request (hd := [w.v.nick, addr]) hm h8 addr k (by omega)
  rw [show [w.v.nick, addr].length = 2 from rfl] at hw
  have hrl : r.1.length = k := by rw [writeSelected_length]; simp [addresses]; omega
  rw [handle, dispatch_25 c m hm.typ]
  unfold Core.handlePageWrite
  simp only [bind_run, get_run, whenM_run, e0, e1, hk]
  rw [if_pos ⟨by omega, trivial⟩, pageWriteLoop_selected c m addr _ 0 _ (by omega), hw]
  change ∃ t txErr, (Core.txFrom c w.v.nick 3 26 ([0] ++ r.1) r.2).2 = _ ∧ _
  rw [txFrom_run _ _ _ _ _ (by simp [hrl]; omega)]
  obtain ⟨t, e, h2, h3⟩ := sent_shape c w (event c w.v.nick 3 26 ([0] ++ r.1)) r.2 (writeSelected_quiet _ _ _)
  exact ⟨t, e, h2, h3, hrl⟩

/-- Page select and one register of the page selected by it are written by the same event; two registers from 0xFE on are
written, the second one is left alone. -/
example : let w := runOps Ex.ctx [.init fun _ => true] (powerUp fun _ => 0xFF)
    Request (Ex.msg 0 25 7 [0xFF, 0x92, 9, 5]) 25 ([w.v.nick, 0x92] ++ [9, 5]) ∧
    (writeSelected Ex.ctx [(0x92, 9), (0x93, 5)] w).2.v.page = 0x0900 ∧
    Request (Ex.msg 0 25 7 [0xFF, 0xFE, 9, 5]) 25 ([w.v.nick, 0xFE] ++ [9, 5]) ∧
    ((frames ((handle Ex.ctx (Ex.msg 0 25 7 [0xFF, 0xFE, 9, 5]) w).out.drop w.out.length)).map payload).map List.length = [2] := by
  refine ⟨⟨rfl, rfl, rfl, ?_⟩, ?_, ⟨rfl, rfl, rfl, ?_⟩, ?_⟩ <;> decide +kernel

end Vscp.Pages
